import Verif.Model.Capabilities
import Verif.Model.ExtendedCapabilities
/- src/lib.rs and the usage shown in README.md (which is the crate documentation, src/lib.rs:1): how
a dump of the configuration space is cut into the three slices the library decodes. -/

namespace Pcics
open ExtendedCapabilities (ECS_OFFSET)

/-- src/lib.rs:25 -/
def DDR_LENGTH : Nat := ECS_OFFSET - DDR_OFFSET

/-- src/lib.rs:27 -/
def ECS_LENGTH : Nat := 4096 - ECS_OFFSET

/-- The slice index expression `&d[a..b]` of Rust: a panic when the range is not within the slice. -/
def sliceRange {ε : Type} (d : Bytes) (a b : Nat) : Res ε Bytes :=
  if a ≤ b ∧ b ≤ d.length then .ok ((d.take b).drop a) else .panic

/-- What the usage example ends up with: the header and the two iterators. -/
structure Dump where
  header : Header.Header
  caps : Capabilities
  ecaps : ExtendedCapabilities.ExtendedCapabilities

/-- README.md:36-58, the three calls of the usage example (src/lib.rs:1 makes it the crate
documentation): `Header::try_from(&d[..DDR_OFFSET])`, `Capabilities::new(&d[DDR_OFFSET..ECS_OFFSET],
&header)`, `ExtendedCapabilities::new(&d[ECS_OFFSET..])`.  The `unwrap` of the header is a panic;
the asserts and searches of the example are left out. -/
def Dump.ofBytes (d : Bytes) : Res Empty Dump := do
  let headerSlice ← sliceRange d 0 DDR_OFFSET
  match Header.Header.ofBytes headerSlice with
  | .ok header =>
    let ddr ← sliceRange d DDR_OFFSET ECS_OFFSET
    let ecs ← sliceRange d ECS_OFFSET d.length
    .ok { header := header
          caps := Capabilities.new ddr header
          ecaps := ExtendedCapabilities.ExtendedCapabilities.new ecs }
  | _ => .panic

end Pcics
