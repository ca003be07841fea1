import Verif.Model.Equality
import Verif.Lemmas.Iter
/- Lemmas for Verif.Props.Equality -/

namespace Pcics

theorem iterEq_iff {σ α : Type} [DecidableEq α] (next : σ → Option (α × σ)) (k : Nat) (s t : σ) :
    iterEq next k s t = true ↔ takeIter next k s = takeIter next k t := by
  induction k generalizing s t with
  | zero => simp [iterEq, takeIter]
  | succ k ih =>
    rw [iterEq, takeIter, takeIter]
    rcases next s with _ | ⟨a, s'⟩ <;> rcases next t with _ | ⟨b, t'⟩ <;> simp [ih]

/-- Beyond the measure of the state, taking more items makes no difference. -/
theorem takeIter_measure {σ α : Type} (next : σ → Option (α × σ)) (μ : σ → Nat)
    (h : ∀ s a s', next s = some (a, s') → μ s' < μ s) (k m : Nat) (s : σ) (hm : μ s ≤ m) :
    takeIter next k s = (takeIter next m s).take k := by
  induction k generalizing s m with
  | zero => simp [takeIter]
  | succ k ih =>
    cases m with
    | zero =>
      rw [takeIter, takeIter]
      rcases hn : next s with _ | ⟨a, s'⟩
      · rfl
      · have := h s a s' hn; omega
    | succ m =>
      rw [takeIter, takeIter]
      rcases hn : next s with _ | ⟨a, s'⟩
      · rfl
      · have := h s a s' hn
        simp only [List.take_succ_cons]
        rw [ih m s' (by omega)]

/-- `Iterator::eq` with enough fuel: all items agree. -/
theorem iterEq_all {σ α : Type} [DecidableEq α] (next : σ → Option (α × σ)) (μ : σ → Nat)
    (h : ∀ s a s', next s = some (a, s') → μ s' < μ s) (s t : σ) :
    iterEq next (μ s + μ t) s t = true ↔ ∀ k, takeIter next k s = takeIter next k t := by
  rw [iterEq_iff]
  constructor
  · intro e k
    rw [takeIter_measure next μ h k (μ s + μ t) s (by omega), e,
      ← takeIter_measure next μ h k (μ s + μ t) t (by omega)]
  · intro e; exact e _

theorem chunk_decreases (n : Nat) (hn : 0 < n) (s a s' : Bytes) (h : chunk n s = some (a, s')) :
    s'.length < s.length := by
  unfold chunk at h
  split at h
  · cases h
  · rename_i hne
    cases h
    have : 0 < s.length := List.length_pos_iff.2 hne
    rw [List.length_drop]; omega

theorem chunksEq_iff (n : Nat) (hn : 0 < n) (a b : Bytes) : chunksEq n a b = true ↔ a = b := by
  rw [chunksEq, iterEq_all (chunk n) List.length (chunk_decreases n hn)]
  constructor
  · intro h
    induction hl : a.length using Nat.strongRecOn generalizing a b with
    | _ l ih =>
      have h1 := h 1
      by_cases ha : a = [] <;> by_cases hb : b = []
      · rw [ha, hb]
      · simp [takeIter, ha, chunk_nil, chunk_ne hb] at h1
      · simp [takeIter, hb, chunk_nil, chunk_ne ha] at h1
      · simp only [takeIter, chunk_ne ha, chunk_ne hb, List.cons.injEq, and_true] at h1
        have hd : a.drop n = b.drop n := by
          have hpos : 0 < a.length := List.length_pos_iff.2 ha
          refine ih (a.drop n).length (by rw [List.length_drop]; omega) _ _ ?_ rfl
          intro k
          have := h (k + 1)
          simp only [takeIter, chunk_ne ha, chunk_ne hb, List.cons.injEq] at this
          exact this.2
        rw [← List.take_append_drop n a, h1, hd, List.take_append_drop]
  · rintro rfl k; rfl

theorem bytesNext_items (k : Nat) (a : Bytes) : takeIter bytesNext k a = a.take k := by
  induction k generalizing a with
  | zero => simp [takeIter]
  | succ k ih => cases a <;> simp [takeIter, bytesNext, ih]

theorem bytesEq_iff (a b : Bytes) : bytesEq a b = true ↔ a = b := by
  rw [bytesEq, iterEq_all bytesNext List.length]
  · simp only [bytesNext_items]
    constructor
    · intro h
      have := h (a.length + b.length)
      rwa [List.take_of_length_le (by omega), List.take_of_length_le (by omega)] at this
    · rintro rfl k; rfl
  · intro s a s' h
    cases s with
    | nil => cases h
    | cons x s => cases h; simp

end Pcics
