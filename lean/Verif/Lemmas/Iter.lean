import Verif.Model.Common
import Verif.Spec
/- Iterators as lists of their items. -/

namespace Pcics

/-- An iterator whose states denote lists, consumed from the front, yields these lists. -/
theorem takeIter_eq {σ α : Type} (next : σ → Option (α × σ)) (I : σ → Prop) (f : σ → List α)
    (h0 : ∀ s, I s → next s = none → f s = [])
    (h1 : ∀ s a s', I s → next s = some (a, s') → I s' ∧ f s = a :: f s')
    (k : Nat) (s : σ) (hs : I s) : takeIter next k s = (f s).take k := by
  induction k generalizing s with
  | zero => simp [takeIter]
  | succ k ih =>
    rw [takeIter]
    cases hn : next s with
    | none => simp [h0 s hs hn]
    | some p =>
      obtain ⟨a, s'⟩ := p
      obtain ⟨hi, he⟩ := h1 s a s' hs hn
      simp only [he, List.take_succ_cons, ih s' hi]

theorem chunk_nil (n : Nat) : chunk n [] = none := rfl

theorem chunk_ne {n : Nat} {d : Bytes} (h : d ≠ []) : chunk n d = some (d.take n, d.drop n) :=
  if_neg h

/-- `List.range` of a sum. -/
theorem range_add_map {α : Type} (m n : Nat) (f : Nat → α) :
    (List.range (m + n)).map f = (List.range m).map f ++ (List.range n).map (fun i => f (m + i)) := by
  rw [List.range_add, List.map_append, List.map_map]
  rfl

/-- An iterator that yields `f` of every complete piece of `n` bytes. -/
theorem takeIter_pieces {σ α : Type} (next : σ → Option (α × σ)) (mk : Bytes → σ) (n : Nat)
    (hn : 0 < n) (f : Bytes → α)
    (h0 : ∀ c, c.length < n → next (mk c) = none)
    (h1 : ∀ c, n ≤ c.length → next (mk c) = some (f c, mk (c.drop n))) (k : Nat) (c : Bytes) :
    takeIter next k (mk c) =
      ((List.range (c.length / n)).map fun i => f (c.drop (n * i))).take k := by
  induction k generalizing c with
  | zero => simp [takeIter]
  | succ k ih =>
    rw [takeIter]
    by_cases hc : n ≤ c.length
    · rw [h1 c hc]
      have : c.length / n = 1 + (c.drop n).length / n := by
        rw [List.length_drop, Nat.div_eq c.length, if_pos ⟨hn, hc⟩, Nat.add_comm]
      rw [this, range_add_map]
      simp only [ih, List.range_one, List.map_cons, List.map_nil, Nat.mul_zero, List.drop_zero,
        List.cons_append, List.nil_append, List.take_succ_cons, List.drop_drop]
      simp only [Nat.mul_add, Nat.mul_one]
    · rw [h0 c (by omega), Nat.div_eq_of_lt (by omega)]
      rfl

end Pcics
