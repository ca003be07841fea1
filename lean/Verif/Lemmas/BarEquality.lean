import Verif.Lemmas.Bar
import Verif.Lemmas.Reads
/- When two register sets denote the same base addresses -/

namespace Pcics.Header
open Spec

theorem two_bits (w : U32) :
    (fld w 1 2 : U8) = if w.getLsbD 1 then (if w.getLsbD 2 then 3 else 1)
      else (if w.getLsbD 2 then 2 else 0) := by
  have key : ∀ x : BitVec 2, x.setWidth 8 = if x.getLsbD 0 then
      (if x.getLsbD 1 then (3 : U8) else 1) else (if x.getLsbD 1 then 2 else 0) := by decide
  rw [fld, key, BitVec.getLsbD_extractLsb', BitVec.getLsbD_extractLsb']
  rfl

theorem is64_bits (w : U32) :
    is64 w = (!w.getLsbD 0 && !w.getLsbD 1 && w.getLsbD 2) := by
  rw [is64, two_bits, flag]
  cases w.getLsbD 0 <;> cases w.getLsbD 1 <;> cases w.getLsbD 2 <;> rfl

/-- What of a register that is no upper half is taken into account. -/
def kept (w : U32) (last : Bool) : U32 :=
  if flag w 0 then w &&& 0xfffffffd#32
  else if is64 w ∧ last then w &&& 0xf#32
  else w

theorem kept_bits (w : U32) (l : Bool) (i : Nat) (hi : i < 3) (h : i ≠ 1 ∨ w.getLsbD 0 = false) :
    (kept w l).getLsbD i = w.getLsbD i := by
  unfold kept
  have : i = 0 ∨ i = 1 ∨ i = 2 := by omega
  split
  · rename_i h0
    simp only [flag] at h0
    rcases this with rfl | rfl | rfl
    · simp [-BitVec.getLsbD_eq_getElem]
    · simp [-BitVec.getLsbD_eq_getElem, h0] at h
    · simp [-BitVec.getLsbD_eq_getElem]
  · split
    · rcases this with rfl | rfl | rfl <;> simp [-BitVec.getLsbD_eq_getElem]
    · rfl

theorem is64_kept {w w' : U32} {l : Bool} (h : kept w l = kept w' l) : is64 w = is64 w' := by
  have h0 : w.getLsbD 0 = w'.getLsbD 0 := by
    rw [← kept_bits w l 0 (by omega) (by omega), h, kept_bits w' l 0 (by omega) (by omega)]
  rw [is64_bits, is64_bits, ← h0]
  cases e : w.getLsbD 0
  · rw [← kept_bits w l 1 (by omega) (by simp [-BitVec.getLsbD_eq_getElem, e]), h,
      kept_bits w' l 1 (by omega) (by rw [← h0, e]; simp),
      ← kept_bits w l 2 (by omega) (by omega), h, kept_bits w' l 2 (by omega) (by omega)]
  · rfl

/-- The kinds of two registers, each followed by a slot or both not, agree exactly when what is kept
of them does, and the upper halves. -/
theorem barKind_eq_iff (w w' : U32) (o o' : Option U32) (ho : o.isSome = o'.isSome) :
    barKind w o = barKind w' o' ↔
      kept w o.isNone = kept w' o.isNone ∧ (is64 w = true → o = o') := by
  have hm : ∀ i, i < 30 → (0xfffffffd#32).getLsbD (2 + i) = true := by decide
  constructor
  · intro h
    cases h0 : w.getLsbD 0 <;> cases h0' : w'.getLsbD 0
    · have hk : is64 w = is64 w' ∧ (w = w' ∨ (is64 w = true ∧ o = none ∧ w &&& 0xf#32 = w' &&& 0xf#32)) ∧
          (is64 w = true → o = o') := by
        simp only [barKind, flag, two_bits, h0, h0', Bool.false_eq_true, if_false] at h
        have hw : w.getLsbD 1 = w'.getLsbD 1 → w.getLsbD 2 = w'.getLsbD 2 →
            w.getLsbD 3 = w'.getLsbD 3 →
            (fld w 4 28 : U32) <<< 4 = (fld w' 4 28 : U32) <<< 4 → w = w' := by
          intro e1 e2 e3 e4
          rw [fld_shl_eq_iff _ _ _ _ _ (by omega)] at e4
          apply BitVec.eq_of_getLsbD_eq
          intro i hi
          match i, hi with
          | 0, _ => rw [h0, h0']
          | 1, _ => exact e1
          | 2, _ => exact e2
          | 3, _ => exact e3
          | i + 4, hi => rw [Nat.add_comm]; exact e4 i (by omega)
        have hw2 : w.getLsbD 1 = w'.getLsbD 1 → w.getLsbD 2 = w'.getLsbD 2 →
            w.getLsbD 3 = w'.getLsbD 3 → w &&& 0xf#32 = w' &&& 0xf#32 := by
          intro e1 e2 e3
          rw [mask_eq_iff]
          intro i hi hf
          match i, hi with
          | 0, _ => rw [h0, h0']
          | 1, _ => exact e1
          | 2, _ => exact e2
          | 3, _ => exact e3
          | i + 4, hi =>
            exfalso
            revert hf
            have : ∀ j, j < 28 → ¬ (0xf#32).getLsbD (j + 4) = true := by decide
            exact this i (by omega)
        simp only [is64_bits, h0, h0']
        cases h1 : w.getLsbD 1 <;> cases h2 : w.getLsbD 2 <;>
          cases h1' : w'.getLsbD 1 <;> cases h2' : w'.getLsbD 2 <;>
          cases o <;> cases o' <;>
          simp [-BitVec.getLsbD_eq_getElem, pick, h1, h2, h1', h2', cat_eq_iff] at h hw hw2 ho ⊢ <;>
          simp_all [-BitVec.getLsbD_eq_getElem]
      obtain ⟨k1, k2, k3⟩ := hk
      refine ⟨?_, k3⟩
      simp only [kept, flag, h0, h0', Bool.false_eq_true, if_false, ← k1]
      rcases k2 with rfl | ⟨k, rfl, k2⟩
      · rfl
      · simp [k, k2]
    · exfalso
      simp only [barKind, flag, two_bits, h0, h0', Bool.false_eq_true, if_false, if_true] at h
      cases h1 : w.getLsbD 1 <;> cases h2 : w.getLsbD 2 <;> cases o <;>
        simp [-BitVec.getLsbD_eq_getElem, pick, h1, h2] at h
    · exfalso
      simp only [barKind, flag, two_bits, h0, h0', Bool.false_eq_true, if_false, if_true] at h
      cases h1 : w'.getLsbD 1 <;> cases h2 : w'.getLsbD 2 <;> cases o' <;>
        simp [-BitVec.getLsbD_eq_getElem, pick, h1, h2] at h
    · simp only [barKind, kept, flag, is64_bits, h0, h0', if_true, BaseAddressType.IoSpace.injEq,
        fld_shl_eq_iff _ _ 2 30 2 (by omega : 30 + 2 ≤ 32)] at h ⊢
      refine ⟨(mask_eq_iff _ _ _).2 fun i hi hf => ?_, by simp⟩
      match i, hi with
      | 0, _ => rw [h0, h0']
      | 1, _ => simp at hf
      | i + 2, hi => rw [Nat.add_comm]; exact h i (by omega)
  · rintro ⟨h, hu⟩
    have e0 : w.getLsbD 0 = w'.getLsbD 0 := by
      rw [← kept_bits w o.isNone 0 (by omega) (by omega), h,
        kept_bits w' o.isNone 0 (by omega) (by omega)]
    cases h0 : w.getLsbD 0 <;> rw [h0] at e0
    · have e1 : w.getLsbD 1 = w'.getLsbD 1 := by
        rw [← kept_bits w o.isNone 1 (by omega) (Or.inr h0), h,
          kept_bits w' o.isNone 1 (by omega) (Or.inr e0.symm)]
      have e2 : w.getLsbD 2 = w'.getLsbD 2 := by
        rw [← kept_bits w o.isNone 2 (by omega) (by omega), h,
          kept_bits w' o.isNone 2 (by omega) (by omega)]
      have k := is64_kept h
      by_cases hc : is64 w = true ∧ o.isNone = true
      · simp only [kept, flag, h0, ← e0, ← k, hc, and_self, if_true, Bool.false_eq_true,
          if_false] at h
        have e3 : w.getLsbD 3 = w'.getLsbD 3 := (mask_eq_iff _ _ _).1 h 3 (by omega) (by decide)
        have h64 := hc.1
        simp only [is64_bits, h0, Bool.not_false, Bool.true_and, Bool.and_eq_true,
          Bool.not_eq_true'] at h64
        have ho' : o = none := by simpa using hc.2
        subst ho'
        have := hu hc.1
        subst this
        simp [-BitVec.getLsbD_eq_getElem, barKind, flag, two_bits, ← e0, h0, ← e1, ← e2, h64, ← e3,
          pick]
      · have hw : w = w' := by
          simpa only [kept, flag, h0, ← e0, ← k, hc, if_false, Bool.false_eq_true] using h
        subst hw
        by_cases h64 : is64 w = true
        · rw [hu h64]
        · have : (fld w 1 2 : U8) ≠ 2 := by
            intro h2; simp [-BitVec.getLsbD_eq_getElem, is64, flag, h0, h2] at h64
          simp only [barKind, pick, this, if_false]
    · simp only [kept, flag, h0, ← e0, if_true] at h
      rw [mask_eq_iff] at h
      simp only [barKind, flag, h0, ← e0, if_true, BaseAddressType.IoSpace.injEq]
      rw [fld_shl_eq_iff _ _ _ _ _ (by omega)]
      exact fun i hi => h (2 + i) (by omega) (hm i hi)

theorem compared_eq (data : List U32) (k : Nat) (hk : k < data.length) :
    compared data k = if isUpper data k then data.getD k 0
      else kept (data.getD k 0) data[k + 1]?.isNone := by
  have : (data[k + 1]?.isNone = true) ↔ data.length ≤ k + 1 := by simp
  simp only [compared, kept, this]

theorem kept_zero_iff (w : U32) (l : Bool) : kept w l = 0 ↔ w = 0 := by
  constructor
  · intro h
    have h0 : w.getLsbD 0 = false := by
      rw [← kept_bits w l 0 (by omega) (by omega), h]; rfl
    have h2 : w.getLsbD 2 = false := by
      rw [← kept_bits w l 2 (by omega) (by omega), h]; rfl
    simpa only [kept, flag, is64_bits, h0, h2, Bool.and_false, Bool.false_eq_true, false_and,
      if_false] using h
  · rintro rfl; cases l <;> decide

theorem barAt_region {data : List U32} {r : Nat} {b : BaseAddress} (h : barAt data r = some b) :
    b.region = r := by
  rw [barAt] at h
  split at h
  · cases h
  · cases h; rfl

theorem barsOf_eq_iff (a b : List U32) (hl : a.length = b.length) :
    barsOf a = barsOf b ↔ ∀ r, r < a.length → barAt a r = barAt b r := by
  constructor
  · intro h r hr
    have mem : ∀ (x : List U32) (y : BaseAddress), y ∈ barsOf x ↔
        ∃ k, k < x.length ∧ barAt x k = some y := by
      intro x y; simp [barsOf, List.mem_filterMap]
    have one : ∀ (x y : List U32), x.length = y.length → barsOf x = barsOf y → r < x.length →
        ∀ c, barAt x r = some c → barAt y r = some c := by
      intro x y hxy he hx c hc
      obtain ⟨k, hk, hkc⟩ := (mem y c).1 (he ▸ (mem x c).2 ⟨r, hx, hc⟩)
      have := barAt_region hc
      rw [barAt_region hkc] at this
      rwa [this] at hkc
    cases ha : barAt a r with
    | some c => exact (one a b hl h hr c ha).symm
    | none =>
      cases hb : barAt b r with
      | none => rfl
      | some c =>
        have := one b a hl.symm h.symm (hl ▸ hr) c hb
        rw [ha] at this; cases this
  · intro h
    rw [barsOf, barsOf, ← hl]
    have : ∀ l : List Nat, (∀ r ∈ l, r < a.length) →
        l.filterMap (barAt a) = l.filterMap (barAt b) := by
      intro l
      induction l with
      | nil => intro _; rfl
      | cons r l ih =>
        intro hm
        rw [List.filterMap_cons, List.filterMap_cons, h r (hm r (by simp)),
          ih fun x hx => hm x (by simp [hx])]
    exact this _ fun r hr => List.mem_range.1 hr

/-- Slot by slot, equal contributions are equal registers as far as compared, and the same slots are
upper halves. -/
theorem barAt_eq_iff (a b : List U32) (hl : a.length = b.length) (n : Nat)
    (hn : n = a.length) :
    (∀ r, r < n → barAt a r = barAt b r) ↔ ∀ k, k < n → compared a k = compared b k := by
  have some_iff : ∀ k : Nat, (a[k]?).isSome = (b[k]?).isSome := by
    intro k; rw [Bool.eq_iff_iff]; simp [hl]
  have none_iff : ∀ k : Nat, (a[k]?).isNone = (b[k]?).isNone := by
    intro k; rw [Bool.eq_iff_iff]; simp [hl]
  have getD_of : ∀ (x y : List U32) (k : Nat), x[k]? = y[k]? → x.getD k 0 = y.getD k 0 := by
    intro x y k h; simp [List.getD_eq_getElem?_getD, h]
  have of_getD : ∀ k : Nat, a.getD k 0 = b.getD k 0 → a[k]? = b[k]? := by
    intro k h
    by_cases hk : k < a.length
    · have hk' : k < b.length := hl ▸ hk
      simpa [List.getD_eq_getElem?_getD, hk, hk'] using h
    · simp [show a.length ≤ k by omega, show b.length ≤ k by omega]
  constructor
  · intro h
    suffices H : ∀ k, k < n → isUpper a k = isUpper b k ∧ compared a k = compared b k ∧
        (isUpper a k = false → is64 (a.getD k 0) = is64 (b.getD k 0)) ∧
        (isUpper a k = false → is64 (a.getD k 0) = true → a[k + 1]? = b[k + 1]?) from
      fun k hk => (H k hk).2.1
    intro k
    induction k with
    | zero =>
      intro hk
      have hr := h 0 hk
      have ua : isUpper a 0 = false := rfl
      have ub : isUpper b 0 = false := rfl
      rw [compared_eq a 0 (by omega), compared_eq b 0 (by omega), ua, ub]
      simp only [barAt, ua, ub, Bool.false_eq_true, false_or] at hr
      by_cases za : a.getD 0 0 = 0
      · by_cases zb : b.getD 0 0 = 0
        · rw [za, zb, none_iff]
          exact ⟨rfl, rfl, fun _ => rfl, fun _ hx => absurd hx (by decide)⟩
        · rw [if_pos za, if_neg zb] at hr; cases hr
      · by_cases zb : b.getD 0 0 = 0
        · rw [if_neg za, if_pos zb] at hr; cases hr
        · rw [if_neg za, if_neg zb] at hr
          simp only [Option.some.injEq, BaseAddress.mk.injEq, true_and] at hr
          rw [barKind_eq_iff _ _ _ _ (some_iff 1)] at hr
          rw [← none_iff]
          exact ⟨rfl, hr.1, fun _ => is64_kept hr.1, fun _ => hr.2⟩
    | succ k ih =>
      intro hk
      obtain ⟨iu, -, i64, inx⟩ := ih (by omega)
      have hr := h (k + 1) hk
      have hu : isUpper a (k + 1) = isUpper b (k + 1) := by
        rw [isUpper, isUpper, ← iu]
        cases hx : isUpper a k
        · rw [i64 hx]
        · rfl
      refine ⟨hu, ?_⟩
      rw [compared_eq a _ (by omega), compared_eq b _ (by omega), ← hu]
      cases ua : isUpper a (k + 1)
      · simp only [barAt, ← hu, ua, Bool.false_eq_true, false_or] at hr
        by_cases za : a.getD (k + 1) 0 = 0
        · by_cases zb : b.getD (k + 1) 0 = 0
          · rw [za, zb, none_iff]
            exact ⟨rfl, fun _ => rfl, fun _ hx => absurd hx (by decide)⟩
          · rw [if_pos za, if_neg zb] at hr; cases hr
        · by_cases zb : b.getD (k + 1) 0 = 0
          · rw [if_neg za, if_pos zb] at hr; cases hr
          · rw [if_neg za, if_neg zb] at hr
            simp only [Option.some.injEq, BaseAddress.mk.injEq, true_and] at hr
            rw [barKind_eq_iff _ _ _ _ (some_iff _)] at hr
            rw [← none_iff]
            exact ⟨hr.1, fun _ => is64_kept hr.1, fun _ => hr.2⟩
      · refine ⟨?_, (fun hx => by cases hx), (fun hx => by cases hx)⟩
        rw [isUpper] at ua
        simp only [Bool.and_eq_true, Bool.not_eq_true'] at ua
        exact getD_of _ _ _ (inx ua.1 ua.2)
  · intro h
    have hu : ∀ k, k ≤ n → isUpper a k = isUpper b k := by
      intro k
      induction k with
      | zero => intro _; rfl
      | succ k ih =>
        intro hk
        have iu := ih (by omega)
        have hc := h k (by omega)
        rw [compared_eq a _ (by omega), compared_eq b _ (by omega), ← iu] at hc
        rw [isUpper, isUpper, ← iu]
        cases hx : isUpper a k
        · rw [hx, none_iff] at hc
          rw [is64_kept hc]
        · rfl
    intro r hr
    have iu := hu r (by omega)
    have hc := h r hr
    rw [compared_eq a _ (by omega), compared_eq b _ (by omega), ← iu] at hc
    rw [barAt, barAt, ← iu]
    cases hx : isUpper a r
    · rw [hx, ← none_iff] at hc
      simp only [Bool.false_eq_true, if_false, false_or] at hc ⊢
      have hz : a.getD r 0 = 0 ↔ b.getD r 0 = 0 := by
        rw [← kept_zero_iff _ a[r + 1]?.isNone, hc, kept_zero_iff]
      by_cases za : a.getD r 0 = 0
      · rw [if_pos za, if_pos (hz.1 za)]
      · rw [if_neg za, if_neg (fun h => za (hz.2 h))]
        simp only [Option.some.injEq, BaseAddress.mk.injEq, true_and]
        rw [barKind_eq_iff _ _ _ _ (some_iff _)]
        refine ⟨hc, fun h64 => ?_⟩
        by_cases h1 : r + 1 < a.length
        · have hc1 := h (r + 1) (by omega)
          have u1 : isUpper a (r + 1) = true := by rw [isUpper, hx, h64]; rfl
          rw [compared_eq a _ (by omega), compared_eq b _ (by omega), ← hu _ (by omega), u1] at hc1
          exact of_getD _ (by simpa using hc1)
        · simp [show a.length ≤ r + 1 by omega, show b.length ≤ r + 1 by omega]
    · simp

end Pcics.Header
