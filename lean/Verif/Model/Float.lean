import Mathlib.Data.Int.Log
import Mathlib.Data.Rat.Floor
import Verif.Model.Cap.PciExpress
import Verif.Model.Ext.PowerBudgeting
/-
The floating point values of the code.  A finite `f32`/`f64` is the rational number it denotes; an
operation is the exact rational result rounded to the nearest number of 24 (`f32`) or 53 (`f64`)
significant bits, ties to even, as IEEE 754 and the Rust reference prescribe; a decimal literal is
the nearest representable number.  All values here lie between 10^-5 and 256 (or are zero), far from
overflow and subnormals, which are not modelled.
-/

namespace Pcics

/-- nearest integer, ties to even -/
def roundHalfEven (x : ℚ) : ℤ :=
  let f := ⌊x⌋
  let r := x - f
  if r < 1 / 2 then f else if 1 / 2 < r then f + 1 else if f % 2 = 0 then f else f + 1

/-- nearest number of `p` significant bits, ties to even -/
def roundTo (p : ℕ) (x : ℚ) : ℚ :=
  if x = 0 then 0
  else
    let e : ℤ := Int.log 2 |x| - (p - 1)
    roundHalfEven (x / 2 ^ e) * 2 ^ e

/-- the result of an `f32` operation whose exact result is `x`, or the literal `x` -/
def f32 (x : ℚ) : ℚ := roundTo 24 x

/-- the same for `f64` -/
def f64 (x : ℚ) : ℚ := roundTo 53 x

namespace PciExpress

/-- src/capabilities/pci_express.rs:715-718: the literal that `scale` of `SlotPowerLimit` stands
for. -/
def SlotPowerLimit.scaleF32 (s : SlotPowerLimit) : ℚ := f32 (1 / 10 ^ s.scale)

/-- src/capabilities/pci_express.rs:724-733: `cspl.scale * cspl.value as f32`, by value and by
reference; an `u8` converts exactly. -/
def SlotPowerLimit.toF32 (s : SlotPowerLimit) : ℚ := f32 (s.scaleF32 * s.value.toNat)

/-- src/capabilities/pci_express.rs:1638 -/
def CompletionTimeoutRanges.A : ℚ × ℚ := (f64 (50 / 10 ^ 6), f64 (10 / 10 ^ 3))
/-- src/capabilities/pci_express.rs:1639 -/
def CompletionTimeoutRanges.B : ℚ × ℚ := (f64 (10 / 10 ^ 3), f64 (250 / 10 ^ 3))
/-- src/capabilities/pci_express.rs:1640 -/
def CompletionTimeoutRanges.C : ℚ × ℚ := (f64 (250 / 10 ^ 6), f64 4)
/-- src/capabilities/pci_express.rs:1641 -/
def CompletionTimeoutRanges.D : ℚ × ℚ := (f64 4, f64 64)

end PciExpress

namespace PowerBudgeting

/-- src/extended_capabilities/power_budgeting.rs:140-147 -/
def DataScale.multiplier : DataScale → ℚ
  | .One => f64 1
  | .Deci => f64 (1 / 10)
  | .Centi => f64 (1 / 100)
  | .Milli => f64 (1 / 1000)

end PowerBudgeting
end Pcics
