import Verif.Model.Order
import Mathlib.Order.Compare
import Mathlib.Order.Defs.LinearOrder
/- C85: the orders of link speeds and widths. -/

namespace Pcics.PciExpress

/-- Documented data rate of a link speed in megatransfers per second. -/
def rate : LinkSpeed → Option Nat
  | .Rate2GTps => some 2500
  | .Rate5GTps => some 5000
  | .Rate8GTps => some 8000
  | .Rate16GTps => some 16000
  | .Rate32GTps => some 32000
  | .Rate64GTps => some 64000
  | _ => none

/-- Number of lanes of a link width. -/
def lanes : LinkWidth → Option Nat
  | .X1 => some 1
  | .X2 => some 2
  | .X4 => some 4
  | .X8 => some 8
  | .X12 => some 12
  | .X16 => some 16
  | .X32 => some 32
  | .Reserved _ => none

/-- C85: comparing two link speeds with a data rate compares the rates. -/
theorem link_speed_order (a b : LinkSpeed) (x y : Nat) (hx : rate a = some x) (hy : rate b = some y) :
    a.cmp b = compare x y := by
  cases a <;> cases hx <;> cases b <;> cases hy <;> rfl

/-- C85: a speed without a data rate (reserved) is above every speed with one. -/
theorem link_speed_reserved (a b : LinkSpeed) (ha : (rate a).isSome) (hb : rate b = none) :
    a.cmp b = .lt ∧ b.cmp a = .gt := by
  cases a <;> cases ha <;> cases b <;> first | exact ⟨rfl, rfl⟩ | cases hb

/-- C85: comparing two link widths compares the numbers of lanes. -/
theorem link_width_order (a b : LinkWidth) (x y : Nat) (hx : lanes a = some x)
    (hy : lanes b = some y) : a.cmp b = compare x y := by
  cases a <;> cases hx <;> cases b <;> cases hy <;> rfl

/-- C85: a reserved width is below every width with a number of lanes. -/
theorem link_width_reserved (a b : LinkWidth) (ha : (lanes a).isSome) (hb : lanes b = none) :
    b.cmp a = .lt ∧ a.cmp b = .gt := by
  cases a <;> cases ha <;> cases b <;> first | exact ⟨rfl, rfl⟩ | cases hb

/-- Where a speed stands in the order: an order preserving numbering. -/
def speedKey (a : LinkSpeed) : Nat :=
  match a with
  | .Reserved v => 7 + v.toNat
  | a => a.position

/-- Where a width stands in the order. -/
def widthKey (a : LinkWidth) : Nat :=
  match a with
  | .Reserved v => v.toNat
  | a => 256 + a.position

theorem speed_cmp (a b : LinkSpeed) : a.cmp b = compare (speedKey a) (speedKey b) := by
  cases a <;> cases b <;> simp only [LinkSpeed.cmp, speedKey, LinkSpeed.position] <;>
    first | rfl | (simp only [compare, compareOfLessAndEq]; split_ifs <;> first | rfl | omega)

theorem width_cmp (a b : LinkWidth) : a.cmp b = compare (widthKey a) (widthKey b) := by
  cases a <;> cases b <;> simp only [LinkWidth.cmp, widthKey, LinkWidth.position] <;>
    first
    | rfl
    | (rename_i v; have := v.isLt; simp only [compare, compareOfLessAndEq]; split_ifs <;> first | rfl | omega)

theorem speedKey_inj {a b : LinkSpeed} (h : speedKey a = speedKey b) : a = b := by
  cases a <;> cases b <;> simp only [speedKey, LinkSpeed.position] at h <;>
    first | rfl | omega | (congr 1; apply BitVec.eq_of_toNat_eq; omega)

theorem widthKey_inj {a b : LinkWidth} (h : widthKey a = widthKey b) : a = b := by
  cases a <;> cases b <;> simp only [widthKey, LinkWidth.position] at h <;>
    first
    | rfl
    | omega
    | (rename_i v w; rw [BitVec.eq_of_toNat_eq h])
    | (rename_i v; have := v.isLt; omega)

/-- C85: the order of link speeds is a total order: equal exactly for equal values, antisymmetric,
transitive. -/
theorem link_speed_total (a b c : LinkSpeed) :
    (a.cmp b = .eq ↔ a = b) ∧ b.cmp a = (a.cmp b).swap ∧
    (a.cmp b = .lt → b.cmp c = .lt → a.cmp c = .lt) := by
  simp only [speed_cmp]
  refine ⟨?_, ?_, ?_⟩
  · rw [Nat.compare_eq_eq]
    exact ⟨speedKey_inj, fun h => by rw [h]⟩
  · exact (Nat.compare_swap _ _).symm
  · rw [Nat.compare_eq_lt, Nat.compare_eq_lt, Nat.compare_eq_lt]; omega

/-- C85: and so is the order of link widths. -/
theorem link_width_total (a b c : LinkWidth) :
    (a.cmp b = .eq ↔ a = b) ∧ b.cmp a = (a.cmp b).swap ∧
    (a.cmp b = .lt → b.cmp c = .lt → a.cmp c = .lt) := by
  simp only [width_cmp]
  refine ⟨?_, ?_, ?_⟩
  · rw [Nat.compare_eq_eq]
    exact ⟨widthKey_inj, fun h => by rw [h]⟩
  · exact (Nat.compare_swap _ _).symm
  · rw [Nat.compare_eq_lt, Nat.compare_eq_lt, Nat.compare_eq_lt]; omega

/-- C85: decoded speeds compare as their codes, except that the reserved code 0 is above the rates
(codes 1 to 6) and the reserved code 7. -/
theorem link_speed_codes (x y : U8) :
    (x ≠ 0 → y ≠ 0 → (LinkSpeed.ofU8 x).cmp (LinkSpeed.ofU8 y) = compare x.toNat y.toNat) ∧
    (x ≠ 0 → x.toNat < 8 → (LinkSpeed.ofU8 x).cmp (LinkSpeed.ofU8 0) = .lt) := by
  have key : ∀ z : U8, z ≠ 0 → speedKey (LinkSpeed.ofU8 z) =
      if z.toNat < 8 then z.toNat - 1 else z.toNat + 7 := by decide +kernel
  refine ⟨fun hx hy => ?_, ?_⟩
  · rw [speed_cmp, key x hx, key y hy]
    have hx' : x.toNat ≠ 0 := fun h => hx (BitVec.eq_of_toNat_eq h)
    have hy' : y.toNat ≠ 0 := fun h => hy (BitVec.eq_of_toNat_eq h)
    simp only [compare, compareOfLessAndEq]
    split_ifs <;> first | rfl | omega
  · revert x; decide +kernel

/-- C85: decoded widths of assigned codes compare as their codes. -/
theorem link_width_codes (x y : U8) (hx : (lanes (LinkWidth.ofU8 x)).isSome)
    (hy : (lanes (LinkWidth.ofU8 y)).isSome) :
    (LinkWidth.ofU8 x).cmp (LinkWidth.ofU8 y) = compare x.toNat y.toNat := by
  have key : ∀ z : U8, (lanes (LinkWidth.ofU8 z)).isSome →
      lanes (LinkWidth.ofU8 z) = some z.toNat := by decide +kernel
  exact link_width_order _ _ _ _ (key x hx) (key y hy)

example : LinkSpeed.Rate8GTps.cmp .Rate32GTps = .lt ∧ LinkWidth.X16.cmp .X12 = .gt ∧
    (LinkSpeed.ofU8 0).cmp .Rate64GTps = .gt ∧ (LinkWidth.ofU8 63).cmp .X1 = .lt := by decide
example : rate .Rate8GTps = some 8000 ∧ rate (.Reserved 9) = none ∧ lanes .X16 = some 16 := by decide

end Pcics.PciExpress
