import Verif.Model.Common
import Verif.Lemmas.Fused
/- From the items of an iterator to what each call returns. -/

namespace Pcics

theorem nthCall_of_take {σ α : Type} {step : σ → Option α × σ} {next : σ → Option (α × σ)}
    (hs : ∀ s, next s = (step s).1.map fun a => (a, (step s).2)) (hf : Fused step) (s : σ)
    (l : List α) (h : ∀ k, takeIter next k s = l.take k) (k : Nat) : nthCall step k s = l[k]? := by
  induction k generalizing s l with
  | zero =>
    have h1 := h 1
    simp only [takeIter, hs] at h1
    show (step s).1 = _
    cases hc : (step s).1 <;> cases l <;> simp_all
  | succ k ih =>
    show nthCall step k (step s).2 = _
    cases hc : (step s).1 with
    | none =>
      have h1 := h 1
      simp only [takeIter, hs, hc] at h1
      cases l with
      | nil => exact hf s hc k
      | cons a l => simp at h1
    | some a =>
      cases l with
      | nil =>
        have h1 := h 1
        simp [takeIter, hs, hc] at h1
      | cons b l =>
        rw [List.getElem?_cons_succ]
        refine ih _ _ fun j => ?_
        have h1 := h (j + 1)
        simp only [takeIter, hs, hc, Option.map_some, List.take_succ_cons, List.cons.injEq] at h1
        exact h1.2

theorem callsItems_none {σ α : Type} {step : σ → Option α × σ} (n : Nat) (s : σ)
    (h : ∀ k, nthCall step k s = none) : callsItems step n s = [] := by
  induction n generalizing s with
  | zero => rfl
  | succ n ih =>
    have h0 : (step s).1 = none := h 0
    rw [callsItems, h0, ih _ fun k => h (k + 1)]
    rfl

theorem nthCall_eq_items {σ α : Type} {step : σ → Option α × σ} (hf : Fused step) (s : σ)
    (k n : Nat) (h : k < n) : nthCall step k s = (callsItems step n s)[k]? := by
  induction k generalizing s n with
  | zero =>
    obtain ⟨n, rfl⟩ := Nat.exists_eq_add_of_lt h
    rw [show 0 + n + 1 = n + 1 by omega, callsItems]
    show (step s).1 = _
    cases hc : (step s).1 with
    | none => rw [callsItems_none n _ (hf s hc)]; rfl
    | some a => rfl
  | succ k ih =>
    obtain ⟨n, rfl⟩ : ∃ m, n = m + 1 := ⟨n - 1, by omega⟩
    rw [callsItems]
    show nthCall step k (step s).2 = _
    cases hc : (step s).1 with
    | none =>
      rw [callsItems_none n _ (hf s hc)]
      exact hf s hc k
    | some a => exact ih _ _ (by omega)

end Pcics
