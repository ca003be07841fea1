import Mathlib.Data.Rat.Defs
import Mathlib.Algebra.Order.Field.Rat
/- Specification of the physical quantities: power in watts, completion timeout ranges in seconds. -/

namespace Pcics.Spec

/-- Slot power limit: value × 10^-scale watts, except that for scale 0 the values F0h, F1h and F2h
mean 250, 275 and 300 watts and larger ones are reserved. -/
def slotWatts (value scale : ℕ) : Option ℚ :=
  if scale = 0 ∧ 0xf0 ≤ value then
    if value = 0xf0 then some 250 else if value = 0xf1 then some 275
    else if value = 0xf2 then some 300 else none
  else some (value / 10 ^ scale)

/-- Power budgeting: base power × 10^-scale watts, except that for scale 0 base powers from F0h on
only give an interval: above 239 up to 250, above 250 up to 275, above 275 up to 300, above 300. -/
inductive BudgetWatts where
  | exactly (w : ℚ)
  | above (w : ℚ) (upTo : Option ℚ)
  deriving DecidableEq

def budgetWatts (base scale : ℕ) : BudgetWatts :=
  if scale = 0 ∧ 0xf0 ≤ base then
    if base = 0xf0 then .above 239 (some 250) else if base = 0xf1 then .above 250 (some 275)
    else if base = 0xf2 then .above 275 (some 300) else .above 300 none
  else .exactly (base / 10 ^ scale)

end Pcics.Spec
