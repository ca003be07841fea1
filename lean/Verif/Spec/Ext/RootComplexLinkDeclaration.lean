import Verif.Model.Ext.RootComplexLinkDeclaration
import Verif.Spec
/- Specification of src/extended_capabilities/root_complex_link_declaration.rs: positions and value tables. -/

namespace Pcics.RootComplexLinkDeclaration
open Spec

/-- Values of `ElementType`. -/
def ElementType.spec (c : U8) : ElementType :=
  pick c [(0, .ConfigurationSpaceElement), (1, .SystemEgressPortOrInternalSink),
    (2, .InternalRootComplexLink)] (.Reserved c)

/-- Layout of `ElementSelfDescription`. -/
def ElementSelfDescription.spec (w : U32) : ElementSelfDescription :=
  {
    element_type := .spec (fld w 0 4), reserved := fld w 4 4, number_of_link_entries := fld w 8 8,
    component_id := fld w 16 8, port_number := fld w 24 8 }

/-- Layout of `LinkDescription`. -/
def LinkDescription.spec (w : U32) : LinkDescription :=
  {
    link_valid := flag w 0, link_type := fld w 1 1, associate_rcrb_header := flag w 2,
    target_component_id := fld w 16 8, target_port_number := fld w 24 8 }

/-- Link address: a memory address, or for link type 1 a location in configuration space, where bits
2:0 of the first dword tell how many bits the bus number has (0 means 8) and the address is what is
left above the bus number. -/
def LinkAddress.spec (link_type : U8) (lo hi : U32) : LinkAddress :=
  if link_type = 0 then .MemoryMappedSpace (cat hi lo)
  else
    let n := if (fld lo 0 3 : U8) = 0 then 8 else (fld lo 0 3 : U8)
    .ConfigurationSpace n (fld lo 3 9) (fld lo 12 3) (fld lo 15 5) (fld lo 20 n.toNat)
      (BitVec.ofNat 64 ((cat hi lo : U64).toNat / 2 ^ (20 + n.toNat) * 2 ^ (20 + n.toNat)))

/-- The link entry at byte `i`. -/
def LinkEntry.spec (d : Bytes) (i : Nat) : LinkEntry :=
  {
    link_description := .spec (rd32 d i),
    link_address := .spec (fld (rd32 d i) 1 1) (rd32 d (i + 8)) (rd32 d (i + 12)) }

/-- Number of link entries announced (bits 15:8 of the element self description). -/
def announced (d : Bytes) : Nat := (fld (rd32 d 0) 8 8 : U8).toNat

/-- What is said about the entries when `n` are announced and `len` bytes are there. -/
def LinkEntriesState.spec (n len : Nat) : LinkEntriesState :=
  if 16 * n ≤ len then .Valid else if len % 16 = 0 then .Incomplete else .Invalid

/-- Number of link entries of a Root Complex Link Declaration that are complete. -/
def linkCount (d : Bytes) : Nat :=
  min (announced d) ((d.length - 12) / 16)

end Pcics.RootComplexLinkDeclaration
