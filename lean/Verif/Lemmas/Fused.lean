import Verif.Spec.Iter
import Verif.Base

namespace Pcics

variable {σ α : Type} {step : σ → Option α × σ}

theorem fused_of_again (h : ∀ s, (step s).1 = none → (step (step s).2).1 = none) : Fused step := by
  intro s hs k
  induction k generalizing s with
  | zero => exact h s hs
  | succ k ih => exact ih (step s).2 (h s hs)

theorem fused_of_same (h : ∀ s, (step s).1 = none → (step s).2 = s) : Fused step :=
  fused_of_again fun s hs => by rw [h s hs]; exact hs

theorem atMost_of_measure (I : σ → Prop) (μ : σ → Nat)
    (h : ∀ s, I s → I (step s).2 ∧ μ (step s).2 + (step s).1.toList.length ≤ μ s)
    {s : σ} (hs : I s) : AtMost step (μ s) s := by
  intro k
  induction k generalizing s with
  | zero => exact Nat.zero_le _
  | succ k ih =>
    have := h s hs
    have := ih this.1
    simp only [callsItems, List.length_append]
    omega

theorem atMost_mono {n m : Nat} (hnm : n ≤ m) {s : σ} (h : AtMost step n s) : AtMost step m s :=
  fun k => Nat.le_trans (h k) hnm

/-- An iterator that consumes `n` bytes per call and returns an item when there are as many. -/
theorem fused_of_chunks (n : Nat) (data : σ → Bytes)
    (h1 : ∀ s, data (step s).2 = (data s).drop n)
    (h2 : ∀ s, (step s).1 = none ↔ (data s).length < n) : Fused step :=
  fused_of_again fun s hs => by
    rw [h2] at hs ⊢
    rw [h1, List.length_drop]
    omega

theorem atMost_of_chunks (n : Nat) (hn : 0 < n) (data : σ → Bytes)
    (h1 : ∀ s, data (step s).2 = (data s).drop n)
    (h2 : ∀ s, (step s).1 = none ↔ (data s).length < n) (s : σ) :
    AtMost step ((data s).length / n) s := by
  refine atMost_of_measure (fun _ => True) (fun s => (data s).length / n) (fun s _ => ⟨trivial, ?_⟩)
    trivial
  simp only [h1, List.length_drop]
  have h := h2 s
  rcases hs : (step s).1 with _ | a
  · exact Nat.add_le_of_le_sub (Nat.zero_le _) (Nat.div_le_div_right (Nat.sub_le _ _))
  · have hl : n ≤ (data s).length := by
      rcases Nat.lt_or_ge (data s).length n with hl | hl
      · rw [h.mpr hl] at hs; cases hs
      · exact hl
    have := Nat.div_eq_sub_div hn hl
    simp only [Option.toList_some, List.length_singleton]
    omega

/-- Number of entries of `n` bits left in a byte at the bit position `shift`, 8 if the positions
never come back to 0. -/
def left (shift n : Nat) : Nat := (List.range 8).findIdx fun j => (shift + j * n) % 8 == 0

theorem left_mod (s n : Nat) : left s n = left s (n % 8) := by
  unfold left
  congr 1
  funext j
  have : j * n % 8 = j * (n % 8) % 8 := by rw [Nat.mul_mod j (n % 8), Nat.mod_mod, ← Nat.mul_mod]
  rw [Nat.add_mod, this, ← Nat.add_mod]

theorem left_zero (n : Nat) : left 0 n = 0 := by
  simp [left, List.range, List.range.loop, List.findIdx_cons]

theorem left_step {s n : Nat} (hs : s < 8) (hl : left s n < 8) :
    (if s = 0 then left ((s + n) % 8) n ≤ 7 else left ((s + n) % 8) n + 1 = left s n) := by
  rw [left_mod] at hl ⊢
  rw [left_mod _ n, Nat.add_mod]
  have hn : n % 8 < 8 := Nat.mod_lt _ (by decide)
  generalize n % 8 = m at *
  have key : ∀ s < 8, ∀ m < 8, left s m < 8 → (if s = 0 then left ((s % 8 + m) % 8) m ≤ 7
      else left ((s % 8 + m) % 8) m + 1 = left s m) := by decide
  exact key s hs m hn hl

end Pcics
