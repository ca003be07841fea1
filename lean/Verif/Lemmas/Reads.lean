import Verif.Lemmas.Bv
/- Lemmas on which bits of a register a decoded value depends. -/

namespace Pcics
open Spec

theorem fld_eq_iff {n m : Nat} (a b : BitVec n) (lo len : Nat) (h : len ≤ m) :
    (fld a lo len : BitVec m) = fld b lo len ↔
      ∀ i, i < len → a.getLsbD (lo + i) = b.getLsbD (lo + i) := by
  constructor
  · intro he i hi
    have := congrArg (·.getLsbD i) he
    simpa [-BitVec.getLsbD_eq_getElem, getLsbD_fld, hi, show i < m by omega] using this
  · intro hb
    apply BitVec.eq_of_getLsbD_eq
    intro i hi
    rw [getLsbD_fld, getLsbD_fld]
    by_cases hl : i < len
    · rw [hb i hl]
    · simp [hl]

theorem fld_shl_eq_iff {n m : Nat} (a b : BitVec n) (lo len s : Nat) (h : len + s ≤ m) :
    (fld a lo len : BitVec m) <<< s = (fld b lo len : BitVec m) <<< s ↔
      ∀ i, i < len → a.getLsbD (lo + i) = b.getLsbD (lo + i) := by
  rw [← fld_eq_iff (m := m) a b lo len (by omega)]
  refine ⟨fun he => ?_, fun he => by rw [he]⟩
  apply BitVec.eq_of_getLsbD_eq
  intro i hi
  by_cases hl : i < len
  · have := congrArg (·.getLsbD (i + s)) he
    simpa [-BitVec.getLsbD_eq_getElem, BitVec.getLsbD_shiftLeft, show i + s < m by omega] using this
  · simp [-BitVec.getLsbD_eq_getElem, getLsbD_fld, hl]

theorem mask_eq_iff {n : Nat} (a b m : BitVec n) : a &&& m = b &&& m ↔
    ∀ i, i < n → m.getLsbD i = true → a.getLsbD i = b.getLsbD i := by
  constructor
  · intro he i hi hm
    have := congrArg (·.getLsbD i) he
    simpa [-BitVec.getLsbD_eq_getElem, hm] using this
  · intro hb
    apply BitVec.eq_of_getLsbD_eq
    intro i hi
    rw [BitVec.getLsbD_and, BitVec.getLsbD_and]
    cases hm : m.getLsbD i
    · simp
    · rw [hb i hi hm]

theorem eq_iff_bits {n : Nat} (a b : BitVec n) :
    a = b ↔ ∀ i, i < n → a.getLsbD i = b.getLsbD i :=
  ⟨fun h i _ => by rw [h], BitVec.eq_of_getLsbD_eq⟩

theorem cat_eq_iff {n m k : Nat} (a b : BitVec n) (x y : BitVec m) (h : n + m ≤ k) :
    (cat a x : BitVec k) = cat b y ↔ a = b ∧ x = y := by
  refine ⟨fun he => ⟨?_, ?_⟩, fun he => by rw [he.1, he.2]⟩
  · apply BitVec.eq_of_getLsbD_eq
    intro i hi
    have := congrArg (·.getLsbD (m + i)) he
    simpa [-BitVec.getLsbD_eq_getElem, getLsbD_cat, show m + i < k by omega] using this
  · apply BitVec.eq_of_getLsbD_eq
    intro i hi
    have := congrArg (·.getLsbD i) he
    simpa [-BitVec.getLsbD_eq_getElem, getLsbD_cat, hi, show i < k by omega] using this

theorem cat_zero_eq_iff {n m k : Nat} (a b : BitVec n) (h : n + m ≤ k) :
    (cat a (0 : BitVec m) : BitVec k) = cat b (0 : BitVec m) ↔ a = b := by
  rw [cat_eq_iff _ _ _ _ h, and_iff_left rfl]

theorem mask_const_iff {n : Nat} (a m : BitVec n) :
    a &&& m = m ↔ ∀ i, i < n → m.getLsbD i = true → a.getLsbD i = true := by
  rw [eq_iff_bits]
  refine forall_congr' fun i => forall_congr' fun _ => ?_
  rw [BitVec.getLsbD_and]
  cases m.getLsbD i <;> simp

theorem extract_eq_iff {n : Nat} (a b : BitVec n) (lo len : Nat) :
    a.extractLsb' lo len = b.extractLsb' lo len ↔
      ∀ i, i < len → a.getLsbD (lo + i) = b.getLsbD (lo + i) := by
  rw [eq_iff_bits]
  refine forall_congr' fun i => forall_congr' fun hi => ?_
  rw [BitVec.getLsbD_extractLsb', BitVec.getLsbD_extractLsb']
  simp [hi]

theorem all_lt_zero {P : Nat → Prop} : (∀ i, i < 0 → P i) ↔ True := by simp

theorem all_lt_succ {P : Nat → Prop} (n : Nat) :
    (∀ i, i < n + 1 → P i) ↔ (∀ i, i < n → P i) ∧ P n := by
  constructor
  · intro h; exact ⟨fun i hi => h i (by omega), h n (by omega)⟩
  · rintro ⟨h1, h2⟩ i hi
    by_cases hn : i = n
    · subst hn; exact h2
    · exact h1 i (by omega)

/-- An enumeration that tells all codes of `len` bits apart. -/
theorem code_eq_iff {α : Type} {n : Nat} (f : U8 → α) (len : Nat) (hl : len ≤ 8)
    (h : ∀ x y : BitVec len, f (x.setWidth 8) = f (y.setWidth 8) → x = y) (a b : BitVec n) (lo : Nat) :
    f (fld a lo len) = f (fld b lo len) ↔
      ∀ i, i < len → a.getLsbD (lo + i) = b.getLsbD (lo + i) := by
  rw [← fld_eq_iff (m := 8) a b lo len hl]
  refine ⟨fun he => ?_, fun he => by rw [he]⟩
  have := h _ _ he
  unfold fld
  rw [this]

theorem fld_code {n m : Nat} (a : BitVec n) (lo len : Nat) :
    (fld a lo len : BitVec m) = (a.extractLsb' lo len).setWidth m := rfl

/-- The decoded values of `a` and `b` are equal exactly when the bits of the mask are. -/
macro "reads" "[" ds:Lean.Parser.Tactic.simpLemma,* "]" : tactic =>
  `(tactic| (
    simp only [$ds,*, Res.ok.injEq, flag, fld_eq_iff, fld_shl_eq_iff, mask_eq_iff, all_lt_succ,
      all_lt_zero, Nat.reduceAdd, Nat.reduceLeDiff, true_and, and_true, BitVec.reduceGetLsb,
      BitVec.reduceNot,       Bool.false_eq_true, getLsbD_fld, Nat.reduceLT, decide_true, decide_false, Bool.true_and,
      Bool.false_and, false_imp_iff, true_imp_iff, forall_const]
    all_goals (constructor <;> (intro h; simp only [h, and_self]))))

end Pcics
