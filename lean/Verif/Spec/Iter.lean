/- Behaviour of an iterator over repeated calls: `step` is one call, giving what it returns and the
state it leaves behind. -/

namespace Pcics

/-- The state after `k` calls, whatever these returned. -/
def callsAfter {σ α : Type} (step : σ → Option α × σ) : Nat → σ → σ
  | 0, s => s
  | k + 1, s => callsAfter step k (step s).2

/-- All items returned by the first `k` calls, including items returned after a `None`. -/
def callsItems {σ α : Type} (step : σ → Option α × σ) : Nat → σ → List α
  | 0, _ => []
  | k + 1, s => (step s).1.toList ++ callsItems step k (step s).2

/-- What call number `k` returns, counting from zero and whatever the calls before returned. -/
def nthCall {σ α : Type} (step : σ → Option α × σ) (k : Nat) (s : σ) : Option α :=
  (step (callsAfter step k s)).1

/-- Once `None` is returned, every later call returns `None`. -/
def Fused {σ α : Type} (step : σ → Option α × σ) : Prop :=
  ∀ s, (step s).1 = none → ∀ k, (step (callsAfter step k (step s).2)).1 = none

/-- However often it is called, no more than `n` items are returned. -/
def AtMost {σ α : Type} (step : σ → Option α × σ) (n : Nat) (s : σ) : Prop :=
  ∀ k, (callsItems step k s).length ≤ n

end Pcics
