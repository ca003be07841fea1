import Verif.Spec.Packed
import Verif.Lemmas.Iter
import Mathlib.Logic.Basic
/- Iterators over packed tables. -/

namespace Pcics
open Spec

theorem packed_cons (size : Nat) (x : U8) (r : Bytes) (hm : 0 < 8 / size) :
    packed size (x :: r) =
      (List.range (8 / size)).map (fun i => (fld x (i * size) size : U8)) ++ packed size r := by
  unfold packed
  rw [List.length_cons, Nat.add_mul, Nat.one_mul, Nat.add_comm, range_add_map]
  refine congrArg₂ (· ++ ·) ?_ ?_
  · apply List.map_congr_left
    intro i hi
    have hi := List.mem_range.1 hi
    rw [Nat.div_eq_of_lt hi, Nat.mod_eq_of_lt hi]
    rfl
  · apply List.map_congr_left
    intro i _
    rw [Nat.add_div_left _ hm, Nat.add_mod_left]
    rfl

theorem fld_all (x : U8) : (fld x 0 8 : U8) = x := by
  apply BitVec.eq_of_getLsbD_eq
  intro i hi
  simp [fld, -BitVec.getLsbD_eq_getElem, hi]

theorem packed_eight (t : Bytes) : packed 8 t = t := by
  induction t with
  | nil => rfl
  | cons x r ih =>
    rw [packed_cons 8 x r (by decide), ih]
    simp [fld_all]

/-- A shift register iterator over bytes yields the packed entries. -/
theorem packed_iter {σ α : Type} (next : σ → Option (α × σ)) (mk : U8 → α)
    (st : Bytes → Nat → U8 → σ) (size : Nat) (hm : 8 / size * size = 8)
    (h0 : ∀ b, next (st [] 0 b) = none)
    (h1 : ∀ x r b, next (st (x :: r) 0 b) = some (mk (fld x 0 size), st r (size % 8) x))
    (h2 : ∀ d j b, 0 < j → j < 8 / size →
      next (st d (j * size) b) = some (mk (fld b (j * size) size), st d ((j * size + size) % 8) b))
    (k : Nat) (t : Bytes) (b : U8) :
    takeIter next k (st t 0 b) = ((packed size t).map mk).take k := by
  have hpos : 0 < 8 / size := by
    rcases Nat.eq_zero_or_pos (8 / size) with h | h
    · rw [h] at hm; omega
    · exact h
  have hs : 0 < size := by
    rcases Nat.eq_zero_or_pos size with h | h
    · rw [h] at hm; omega
    · exact h
  have key : ∀ k d j b, j < 8 / size → takeIter next k (st d (j * size) b) =
      (((if j = 0 then [] else
        (List.range (8 / size - j)).map (fun i => (fld b ((j + i) * size) size : U8)))
        ++ packed size d).map mk).take k := by
    intro k
    induction k with
    | zero => intros; simp [takeIter]
    | succ k ih =>
      intro d j b hj
      have tl : ∀ (d : Bytes) (j : Nat) (b : U8), j < 8 / size →
          takeIter next k (st d ((j * size + size) % 8) b) =
          (((List.range (8 / size - (j + 1))).map (fun i => (fld b ((j + 1 + i) * size) size : U8))
            ++ packed size d).map mk).take k := by
        intro d j b hj
        by_cases hl : j + 1 = 8 / size
        · have e : (j * size + size) % 8 = 0 * size := by
            have : j * size + size = 8 := by rw [← Nat.succ_mul, Nat.succ_eq_add_one, hl, hm]
            rw [this]; omega
          rw [e, ih d 0 b hpos, if_pos rfl, hl, Nat.sub_self]
          rfl
        · have hlt : (j + 1) * size < 8 := by
            rw [← hm]; exact Nat.mul_lt_mul_of_pos_right (by omega) hs
          have e : (j * size + size) % 8 = (j + 1) * size := by
            rw [Nat.add_mul, Nat.one_mul] at *
            exact Nat.mod_eq_of_lt hlt
          rw [e, ih d (j + 1) b (by omega), if_neg (by omega)]
      by_cases hj0 : j = 0
      · subst hj0
        rw [if_pos rfl, Nat.zero_mul, List.nil_append]
        cases d with
        | nil => rw [takeIter, h0]; simp [packed]
        | cons x r =>
          have := tl r 0 x hpos
          rw [Nat.zero_mul, Nat.zero_add] at this
          rw [takeIter, h1]
          simp only
          rw [this, packed_cons size x r hpos]
          obtain ⟨m, hm'⟩ : ∃ m, 8 / size = m + 1 := ⟨8 / size - 1, by omega⟩
          rw [hm', Nat.add_comm m 1, range_add_map]
          simp only [List.range_one, List.map_cons, List.map_nil, List.cons_append, List.nil_append,
            List.take_succ_cons, Nat.zero_mul, Nat.add_sub_cancel_left, Nat.zero_add]
      · rw [if_neg hj0, takeIter, h2 d j b (by omega) hj]
        simp only
        rw [tl d j b hj]
        obtain ⟨m, hm'⟩ : ∃ m, 8 / size - j = m + 1 := ⟨8 / size - j - 1, by omega⟩
        rw [hm', Nat.add_comm m 1, range_add_map, show 8 / size - (j + 1) = m by omega]
        simp only [List.range_one, List.map_cons, List.map_nil, List.cons_append, List.nil_append,
          List.take_succ_cons, Nat.add_zero, Nat.add_assoc]
  have := key k t 0 b hpos
  rw [Nat.zero_mul] at this
  rw [this, if_pos rfl, List.nil_append]

/-- An iterator handing out the bytes themselves. -/
theorem bytes_iter {σ α : Type} (next : σ → Option (α × σ)) (mk : U8 → α) (st : Bytes → σ)
    (h0 : next (st []) = none)
    (h1 : ∀ x r, next (st (x :: r)) = some (mk x, st r))
    (k : Nat) (t : Bytes) : takeIter next k (st t) = (t.map mk).take k := by
  induction k generalizing t with
  | zero => simp [takeIter]
  | succ k ih =>
    cases t with
    | nil => rw [takeIter, h0]; rfl
    | cons x r => rw [takeIter, h1]; simp only [ih, List.map_cons, List.take_succ_cons]

end Pcics
