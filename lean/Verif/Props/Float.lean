import Verif.Lemmas.Float
import Verif.Spec.Float
import Verif.Props.Cap.PciExpress
import Verif.Props.Ext.PowerBudgeting
import Mathlib.Tactic.IntervalCases

/- Properties of the floating point values: C71, C72, C73. -/

namespace Pcics.FloatProps

open Pcics PciExpress PowerBudgeting Spec

/-- C71: the integer that the significand of a float is rounded to is a nearest one, and the even one
of two. -/
theorem rounding_to_nearest_even (x : ℚ) :
    |(roundHalfEven x : ℚ) - x| ≤ 1 / 2 ∧
      (|(roundHalfEven x : ℚ) - x| = 1 / 2 → roundHalfEven x % 2 = 0) :=
  ⟨roundHalfEven_err x, roundHalfEven_tie x⟩

example : roundHalfEven (5 / 2) = 2 ∧ roundHalfEven (7 / 2) = 4 := by decide +kernel

/-- C71: for every value and decimal scale the `f32` is the power value × 10^-scale up to the two
roundings, of the scale and of the product. -/
theorem slot_power_error (s : SlotPowerLimit) :
    |s.toF32 - s.value.toNat / 10 ^ s.scale| ≤
      s.value.toNat / 10 ^ s.scale * (1 / 2 ^ 23 + 1 / 2 ^ 48) := by
  unfold SlotPowerLimit.toF32
  by_cases hv : s.value.toNat = 0
  · simp [hv, f32, roundTo]
  have hv : (0 : ℚ) < s.value.toNat := by exact_mod_cast Nat.pos_of_ne_zero hv
  have ht : (0 : ℚ) < 1 / 10 ^ s.scale := by positivity
  have h1 : |s.scaleF32 - 1 / 10 ^ s.scale| ≤ 1 / 10 ^ s.scale * (1 / 2 ^ 24) := roundTo_err 24 _ ht
  have ht' : (s.value.toNat : ℚ) / 10 ^ s.scale = s.value.toNat * (1 / 10 ^ s.scale) := by ring
  rw [ht']
  generalize (1 : ℚ) / 10 ^ s.scale = t at *
  generalize s.scaleF32 = c at *
  generalize (s.value.toNat : ℚ) = v at *
  rw [abs_le] at h1
  have hc : 0 < c := by linarith
  have h2 : |f32 (c * v) - c * v| ≤ c * v * (1 / 2 ^ 24) := roundTo_err 24 _ (by positivity)
  rw [abs_le] at h2 ⊢
  have a1 : (c - t) * v ≤ t * (1 / 2 ^ 24) * v := by
    exact mul_le_mul_of_nonneg_right h1.2 hv.le
  have a2 : -(t * (1 / 2 ^ 24)) * v ≤ (c - t) * v := by
    exact mul_le_mul_of_nonneg_right h1.1 hv.le
  have a3 : c * v ≤ t * v * (1 + 1 / 2 ^ 24) := by linarith
  constructor <;> linarith

/-- C71: in whole watts (scale 0) the result is exact. -/
theorem slot_power_whole_watts (s : SlotPowerLimit) (h : s.scale = 0) :
    s.toF32 = s.value.toNat := by
  have h1 : s.scaleF32 = 1 := by
    have := roundTo_nat 24 1 (by norm_num)
    simpa [SlotPowerLimit.scaleF32, h, f32] using this
  have hv : s.value.toNat < 2 ^ 24 := by have := s.value.isLt; omega
  unfold SlotPowerLimit.toF32
  rw [h1, one_mul]
  exact roundTo_nat 24 _ hv

/-- C71: of two limits with the same scale the one with the larger value is the larger number, so
rounding never merges two different limits. -/
theorem slot_power_strictly_increasing (a b : SlotPowerLimit) (hs : a.scale = b.scale)
    (h : a.value.toNat < b.value.toNat) : a.toF32 < b.toF32 := by
  have ha := slot_power_error a
  have hb := slot_power_error b
  rw [hs] at ha
  have ht : (0 : ℚ) < 1 / 10 ^ b.scale := by positivity
  have hv : (b.value.toNat : ℚ) ≤ 255 := by have := b.value.isLt; exact_mod_cast (by omega)
  have hl : (a.value.toNat : ℚ) + 1 ≤ b.value.toNat := by exact_mod_cast h
  have e : ∀ v : ℚ, v / 10 ^ b.scale = v * (1 / 10 ^ b.scale) := fun v => by ring
  rw [e] at ha hb
  generalize (1 : ℚ) / 10 ^ b.scale = t at *
  rw [abs_le] at ha hb
  have m1 : (a.value.toNat : ℚ) * t + t ≤ b.value.toNat * t := by
    have := mul_le_mul_of_nonneg_right hl ht.le
    linarith
  have m2 : (b.value.toNat : ℚ) * t ≤ 255 * t := mul_le_mul_of_nonneg_right hv ht.le
  linarith

/-- C71 (the code violates the stronger reading): the result is not always the `f32` nearest to the
decimal value: 9 × 0.1 W is not the number the literal `0.9` denotes. -/
theorem slot_power_not_nearest :
    (⟨9, 1⟩ : SlotPowerLimit).toF32 ≠ f32 (9 / 10) := by decide +kernel

/-- C71 (the code violates it): the alternative encodings are ignored, a slot that announces 250 W
is reported as 240 W. -/
theorem slot_power_alternative_encodings_fail :
    ∃ w c, DeviceCapabilities.ofU32 (ε := Empty) w = .ok c ∧
      slotWatts (fld w 18 8 : U8).toNat (fld w 26 2 : U8).toNat = some 250 ∧
      c.captured_slot_power_limit.toF32 = 240 :=
  ⟨0x03c00000, DeviceCapabilities.spec 0x03c00000, by rw [DeviceCapabilities_layout],
    by decide +kernel, by decide +kernel⟩

/-- within the two roundings of the exact number of watts -/
def near (x : ℚ) (watts : Option ℚ) : Prop :=
  ∃ w, watts = some w ∧ |x - w| ≤ w * (1 / 2 ^ 23 + 1 / 2 ^ 48)

theorem near_of_spec (value scale : U8) (h : ¬(scale.toNat = 0 ∧ 0xf0 ≤ value.toNat)) :
    near (SlotPowerLimit.spec value scale).toF32 (slotWatts value.toNat scale.toNat) := by
  refine ⟨value.toNat / 10 ^ scale.toNat, ?_, slot_power_error (SlotPowerLimit.spec value scale)⟩
  unfold slotWatts; rw [if_neg h]

/-- C71 (what is missing: scale 0 with a value of F0h or more, where it fails): the captured slot
power limit of every device capabilities register is the number of watts it encodes. -/
theorem slot_power_captured_partial (w : U32)
    (h : ¬((fld w 26 2 : U8).toNat = 0 ∧ 0xf0 ≤ (fld w 18 8 : U8).toNat)) :
    ∃ c, DeviceCapabilities.ofU32 (ε := Empty) w = .ok c ∧
      near c.captured_slot_power_limit.toF32
        (slotWatts (fld w 18 8 : U8).toNat (fld w 26 2 : U8).toNat) :=
  ⟨_, DeviceCapabilities_layout w, near_of_spec _ _ h⟩

/-- C71 (what is missing: the same case): and the slot power limit of every slot capabilities
register. -/
theorem slot_power_limit_partial (w : U32)
    (h : ¬((fld w 15 2 : U8).toNat = 0 ∧ 0xf0 ≤ (fld w 7 8 : U8).toNat)) :
    ∃ c, SlotCapabilities.ofU32 (ε := Empty) w = .ok c ∧
      near c.slot_power_limit.toF32
        (slotWatts (fld w 7 8 : U8).toNat (fld w 15 2 : U8).toNat) :=
  ⟨_, SlotCapabilities_layout w, near_of_spec _ _ h⟩

example : (⟨25, 1⟩ : SlotPowerLimit).toF32 = 5 / 2 := by decide +kernel

/-- as near to a decimal as an `f64` is bound to be; `nearestF64` says that it is an `f64` -/
def isF64 (x decimal : ℚ) : Prop := |x - decimal| ≤ decimal * (1 / 2 ^ 53)

instance (x d : ℚ) : Decidable (isF64 x d) := inferInstanceAs (Decidable (_ ≤ _))

/-- C72 (the code violates it): range C does not start where range B ends, but at 250 µs. -/
theorem completion_timeout_ranges_fail :
    CompletionTimeoutRanges.B.2 ≠ CompletionTimeoutRanges.C.1 ∧
      isF64 CompletionTimeoutRanges.C.1 (250 / 1000000) := by decide +kernel

/-- C72 (what is missing: that range C starts at 250 ms, which fails): range A is 50 µs to 10 ms, B
follows it up to 250 ms, C ends at 4 s and D follows it up to 64 s, to `f64` precision, and every
range is nonempty. -/
theorem completion_timeout_ranges_partial :
    isF64 CompletionTimeoutRanges.A.1 (50 / 1000000) ∧
    isF64 CompletionTimeoutRanges.A.2 (10 / 1000) ∧
    CompletionTimeoutRanges.B.1 = CompletionTimeoutRanges.A.2 ∧
    isF64 CompletionTimeoutRanges.B.2 (250 / 1000) ∧
    CompletionTimeoutRanges.C.2 = 4 ∧
    CompletionTimeoutRanges.D = (4, 64) ∧
    ∀ r ∈ [CompletionTimeoutRanges.A, CompletionTimeoutRanges.B, CompletionTimeoutRanges.C,
      CompletionTimeoutRanges.D], r.1 < r.2 := by decide +kernel

/-- What a decoded data register says about the power: a base power value times the multiplier, or
one of the named intervals. -/
def encodes (d : PowerBudgeting.Data) : BudgetWatts → Prop
  | .exactly w => ∃ v, d.base_power = .Value v ∧ isF64 (v.toNat * d.data_scale.multiplier) w
  | .above lo hi =>
    (d.base_power, lo, hi) ∈ [(BasePower.Gt239Le250, (239 : ℚ), some (250 : ℚ)),
      (.Gt250Le275, 250, some 275), (.Gt275Le300, 275, some 300), (.Gt300, 300, none)]

/-- C73: the multiplier is 10^-code to `f64` precision, for every code. -/
theorem multiplier_values (c : U8) (h : c.toNat < 4) :
    isF64 (DataScale.spec c).multiplier (1 / 10 ^ c.toNat) := by
  have hb : c = BitVec.ofNat 8 c.toNat := by simp
  generalize c.toNat = n at hb h ⊢
  subst hb
  interval_cases n <;> decide +kernel

/-- `x` has 53 significant bits and is at most half a unit in the last place away from `decimal` -/
def nearestF64 (x decimal : ℚ) : Prop := ∃ m e : ℕ,
  2 ^ 52 ≤ m ∧ m < 2 ^ 53 ∧ x = m / 2 ^ e ∧ |x - decimal| ≤ 1 / 2 ^ e / 2

/-- C72 (what is missing: that range C starts at 250 ms, which fails): every bound is the `f64` nearest
to the decimal written in the code. -/
theorem completion_timeout_f64_partial :
    nearestF64 CompletionTimeoutRanges.A.1 (50 / 1000000) ∧
    nearestF64 CompletionTimeoutRanges.A.2 (10 / 1000) ∧
    nearestF64 CompletionTimeoutRanges.B.1 (10 / 1000) ∧
    nearestF64 CompletionTimeoutRanges.B.2 (250 / 1000) ∧
    nearestF64 CompletionTimeoutRanges.C.1 (250 / 1000000) ∧
    nearestF64 CompletionTimeoutRanges.C.2 4 ∧
    nearestF64 CompletionTimeoutRanges.D.1 4 ∧
    nearestF64 CompletionTimeoutRanges.D.2 64 :=
  ⟨⟨7378697629483821, 67, by decide +kernel⟩,
   ⟨5764607523034235, 59, by decide +kernel⟩,
   ⟨5764607523034235, 59, by decide +kernel⟩,
   ⟨4503599627370496, 54, by decide +kernel⟩,
   ⟨4611686018427388, 64, by decide +kernel⟩,
   ⟨4503599627370496, 50, by decide +kernel⟩,
   ⟨4503599627370496, 50, by decide +kernel⟩,
   ⟨4503599627370496, 46, by decide +kernel⟩⟩

/-- C73: the multiplier is the `f64` nearest to 10^-code, for every code. -/
theorem multiplier_f64 (c : U8) (h : c.toNat < 4) :
    nearestF64 (DataScale.spec c).multiplier (1 / 10 ^ c.toNat) := by
  have hb : c = BitVec.ofNat 8 c.toNat := by simp
  generalize c.toNat = n at hb h ⊢
  subst hb
  interval_cases n
  · exact ⟨4503599627370496, 52, by decide +kernel⟩
  · exact ⟨7205759403792794, 56, by decide +kernel⟩
  · exact ⟨5764607523034235, 59, by decide +kernel⟩
  · exact ⟨4611686018427388, 62, by decide +kernel⟩

/-- One tenth is no `f64`: the multiplier is a little more. -/
example : (DataScale.spec 1).multiplier = 3602879701896397 / 2 ^ 55 ∧
    (1 / 10 : ℚ) < (DataScale.spec 1).multiplier := by decide +kernel

/-- C73 (the code violates it): base powers from F0h on are taken for the named intervals whatever
the scale: 24.0 W, written as F0h with scale 0.1, decodes as "above 239 up to 250 W". -/
theorem base_power_scaled_fails :
    ∃ d r, PowerBudgeting.ofBytes d = .ok r ∧
      budgetWatts (fld (rd32 d 4) 0 8 : U8).toNat (fld (rd32 d 4) 8 2 : U8).toNat = .exactly 24 ∧
      r.data.base_power = .Gt239Le250 :=
  ⟨[0, 0, 0, 0, 0xf0, 1, 0, 0, 0, 0, 0, 0], _, rfl, by decide +kernel, rfl⟩

/-- C73 (what is missing: base powers from F0h on with a scale other than 1, where it fails): every
data register is decoded to the power it encodes. -/
theorem base_power_partial (d : Bytes) (hl : 12 ≤ d.length)
    (h : (fld (rd32 d 4) 0 8 : U8).toNat < 0xf0 ∨ (fld (rd32 d 4) 8 2 : U8).toNat = 0) :
    ∃ r, PowerBudgeting.ofBytes d = .ok r ∧
      encodes r.data (budgetWatts (fld (rd32 d 4) 0 8 : U8).toNat (fld (rd32 d 4) 8 2 : U8).toNat) := by
  refine ⟨_, by rw [PowerBudgeting_bytes, if_pos hl], ?_⟩
  have hc : (fld (rd32 d 4) 8 2 : U8).toNat < 4 := by
    simp only [fld, BitVec.toNat_setWidth, BitVec.extractLsb'_toNat]; omega
  simp only [PowerBudgeting.spec]
  generalize (fld (rd32 d 4) 8 2 : U8) = c at h hc
  generalize (fld (rd32 d 4) 0 8 : U8) = b at h
  unfold budgetWatts
  by_cases hb : b.toNat < 0xf0
  · rw [if_neg (by omega)]
    refine ⟨b, by simp only [BasePower.spec, hb, if_true], ?_⟩
    have hm := multiplier_values c hc
    unfold isF64 at hm ⊢
    have e : (b.toNat : ℚ) / 10 ^ c.toNat = b.toNat * (1 / 10 ^ c.toNat) := by ring
    rw [e]
    dsimp only
    generalize (DataScale.spec c).multiplier = m at hm ⊢
    generalize (1 : ℚ) / 10 ^ c.toNat = t at hm ⊢
    rw [← mul_sub, abs_mul, abs_of_nonneg (by positivity), mul_assoc]
    exact mul_le_mul_of_nonneg_left hm (by positivity)
  · have hc0 : c.toNat = 0 := by omega
    rw [if_pos ⟨hc0, by omega⟩]
    have hbb : b = BitVec.ofNat 8 b.toNat := by simp
    have hlt := b.isLt
    generalize b.toNat = n at hbb hb hlt ⊢
    subst hbb
    have : 0xf0 ≤ n := by omega
    clear hb h
    interval_cases n <;> simp [encodes, BasePower.spec, pick]

example : ∃ r, PowerBudgeting.ofBytes [0, 0, 0, 0, 0x19, 1, 0, 0, 0, 0, 0, 0] = .ok r ∧
    encodes r.data (.exactly (25 / 10)) :=
  base_power_partial [0, 0, 0, 0, 0x19, 1, 0, 0, 0, 0, 0, 0] (by decide) (by decide +kernel)

end Pcics.FloatProps
