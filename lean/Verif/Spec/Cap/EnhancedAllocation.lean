import Verif.Model.Cap.EnhancedAllocation
import Verif.Spec
/- Specification of src/capabilities/enhanced_allocation.rs: positions and value tables. -/

namespace Pcics.EnhancedAllocation
open Spec

/-- Values of `BarEquivalentIndicator`. -/
def BarEquivalentIndicator.spec (c : U8) : BarEquivalentIndicator :=
  pick c [(0, .Location10h), (1, .Location14h), (2, .Location18h), (3, .Location1Ch),
    (4, .Location20h), (5, .Location24h), (6, .BehindType1Function),
    (7, .EquivalentNotIndicated), (8, .ExpansionRomBaseAddress), (9, .VfBar0), (10, .VfBar1),
    (11, .VfBar2), (12, .VfBar3), (13, .VfBar4), (14, .VfBar5)] .Reserved

/-- Values of `ResourceDefinition`. -/
def ResourceDefinition.spec (c : U8) : ResourceDefinition :=
  pick c [(0, .MemorySpaceNonPrefetchable), (1, .MemorySpacePrefetchable), (2, .IoSpace),
    (3, .PfForVfMemorySpacePrefetchable), (4, .PfForVfMemorySpaceNonPrefetchable),
    (5, .Type1ForAbbMemoryNonPrefetchable), (6, .Type1ForAbbMemoryPrefetchable),
    (7, .Type1ForAbbIoSpace), (253, .UnavailableMemorySpace), (254, .UnavailableIoSpace),
    (255, .Unavailable)] (.Reserved c)

/-- The entry starting at `d[0]`: first dword, base low, max offset low, base high (if bit 1 of base
low is set), max offset high (if bit 1 of max offset low is set).  Bits 1:0 of a base read as zero,
of a max offset as one. -/
def EnhancedAllocationEntry.spec (d : Bytes) : EnhancedAllocationEntry :=
  let base64 := flag (rd32 d 4) 1
  let max64 := flag (rd32 d 8) 1
  { entry_size := fld (rd32 d 0) 0 3
    bar_equivalent_indicator := .spec (fld (rd32 d 0) 4 4)
    primary_properties := .spec (fld (rd32 d 0) 8 8)
    secondary_properties := .spec (fld (rd32 d 0) 16 8)
    writable := flag (rd32 d 0) 30
    enable := flag (rd32 d 0) 31
    base :=
      if base64 then .U64 (cat (rd32 d 12) (rd32 d 4 &&& ~~~0b11#32))
      else .U32 (rd32 d 4 &&& ~~~0b11#32)
    max_offset :=
      if max64 then .U64 (cat (rd32 d (if base64 then 16 else 12)) (rd32 d 8 ||| 0b11#32))
      else .U32 (rd32 d 8 ||| 0b11#32) }

/-- Bytes the entry at `d[0]` occupies. -/
def entryBytes (d : Bytes) : Nat :=
  12 + (if flag (rd32 d 4) 1 then 4 else 0) + (if flag (rd32 d 8) 1 then 4 else 0)

/-- Distance to the next entry: one more than the entry size field, in dwords (or, with the feature
`real`, the bytes occupied). -/
def entryStep (real : Bool) (d : Bytes) : Nat :=
  if real then entryBytes d else 4 * ((fld (rd32 d 0) 0 3 : U8).toNat + 1)

/-- The entry at `d[0]` is available. -/
def entryFits (real : Bool) (d : Bytes) : Prop :=
  12 ≤ d.length ∧ entryBytes d ≤ d.length ∧ entryStep real d ≤ d.length

instance (real : Bool) (d : Bytes) : Decidable (entryFits real d) := by
  unfold entryFits; infer_instance

/-- The first `n` entries of `d`, each following the previous one, up to the first that does not
fit. -/
def entriesOf (real : Bool) : Nat → Bytes → List EnhancedAllocationEntry
  | 0, _ => []
  | n + 1, d =>
    if entryFits real d then
      EnhancedAllocationEntry.spec d :: entriesOf real n (d.drop (entryStep real d))
    else []

end Pcics.EnhancedAllocation
