import Verif.Model.Common
/- Model of src/extended_capabilities/root_complex_link_declaration.rs -/

namespace Pcics.RootComplexLinkDeclaration

/-- src/extended_capabilities/root_complex_link_declaration.rs:70-75 -/
structure DeviceSerialNumber where
  lower_dword : U32
  upper_dword : U32
  deriving DecidableEq, Repr

/-- src/extended_capabilities/root_complex_link_declaration.rs:76-94 (a second copy of the Device
Serial Number decoder) -/
def DeviceSerialNumber.ofBytes (slice : Bytes) : Res ExtendedCapabilityDataError DeviceSerialNumber :=
  BP.head (do
    let lower_dword ← le32
    let upper_dword ← le32
    return { lower_dword := lower_dword, upper_dword := upper_dword })
    { name := "Device Serial Number", size := 8 } slice

/-- src/extended_capabilities/root_complex_link_declaration.rs:207-216 -/
inductive ElementType where
  | ConfigurationSpaceElement
  | SystemEgressPortOrInternalSink
  | InternalRootComplexLink
  | Reserved (v : U8)
  deriving DecidableEq, Repr

/-- src/extended_capabilities/root_complex_link_declaration.rs:170-181 -/
structure ElementSelfDescription where
  element_type : ElementType
  reserved : U8
  number_of_link_entries : U8
  component_id : U8
  port_number : U8
  deriving DecidableEq, Repr

/-- src/extended_capabilities/root_complex_link_declaration.rs:103-118 -/
inductive RootComplexLinkDeclarationError where
  | ElementSelfDescription
  | NumberOfLinkEntries (element_self_description : ElementSelfDescription)
  | ReservedSpace (element_self_description : ElementSelfDescription)
  | LinkEntry1 (element_self_description : ElementSelfDescription)
  deriving DecidableEq, Repr

/-- src/extended_capabilities/root_complex_link_declaration.rs:288-295 -/
inductive LinkEntriesState where
  | Valid
  | Incomplete
  | Invalid
  deriving DecidableEq, Repr

/-- src/extended_capabilities/root_complex_link_declaration.rs:240-243; the chunk iterator is the
bytes left in it -/
structure LinkEntries where
  chunks : Bytes
  state : LinkEntriesState
  deriving DecidableEq, Repr

/-- src/extended_capabilities/root_complex_link_declaration.rs:122-125 -/
structure RootComplexLinkDeclaration where
  element_self_description : ElementSelfDescription
  link_entries : LinkEntries
  deriving DecidableEq, Repr

/-- src/extended_capabilities/root_complex_link_declaration.rs:217-226 -/
def ElementType.ofU8 (b : U8) : ElementType :=
  match b.toNat with
  | 0x00 => .ConfigurationSpaceElement
  | 0x01 => .SystemEgressPortOrInternalSink
  | 0x02 => .InternalRootComplexLink
  | _ => .Reserved b

/-- src/extended_capabilities/root_complex_link_declaration.rs:185-203 (`From<u32>`, `FromLeBytes<4>`) -/
def ElementSelfDescription.ofU32 (w : U32) : ElementSelfDescription := runBits w do
  let element_type ← bits 4
  let reserved ← bits 4
  let number_of_link_entries ← bits 8
  let component_id ← bits 8
  let port_number ← bits 8
  return {
    element_type := ElementType.ofU8 element_type, reserved := reserved,
    number_of_link_entries := number_of_link_entries, component_id := component_id,
    port_number := port_number }

/-- src/extended_capabilities/root_complex_link_declaration.rs:227-236 -/
def ElementType.toU8 : ElementType → U8
  | .ConfigurationSpaceElement => 0x00
  | .SystemEgressPortOrInternalSink => 0x01
  | .InternalRootComplexLink => 0x02
  | .Reserved v => v

/-- src/extended_capabilities/root_complex_link_declaration.rs:312-323 -/
structure LinkDescription where
  link_valid : Bool
  link_type : U8
  associate_rcrb_header : Bool
  target_component_id : U8
  target_port_number : U8
  deriving DecidableEq, Repr

/-- src/extended_capabilities/root_complex_link_declaration.rs:351-369 -/
inductive LinkAddress where
  | MemoryMappedSpace (v : U64)
  | ConfigurationSpace (n : U8) (reserved : U16) (function : U8) (device : U8) (bus : U8) (address : U64)
  deriving DecidableEq, Repr

/-- src/extended_capabilities/root_complex_link_declaration.rs:299-304 -/
structure LinkEntry where
  link_description : LinkDescription
  link_address : LinkAddress
  deriving DecidableEq, Repr

/-- src/extended_capabilities/root_complex_link_declaration.rs:324-347 (`From<u32>`, `FromLeBytes<4>`) -/
def LinkDescription.ofU32 (w : U32) : LinkDescription := runBits w do
  let link_valid ← bit
  let link_type ← bits 1
  let associate_rcrb_header ← bit
  skip 13
  let target_component_id ← bits 8
  let target_port_number ← bits 8
  return {
    link_valid := link_valid, link_type := link_type,
    associate_rcrb_header := associate_rcrb_header, target_component_id := target_component_id,
    target_port_number := target_port_number }

/-- src/extended_capabilities/root_complex_link_declaration.rs:375-398 -/
def LinkAddress.new (link_type : U8) (first_dword second_dword : U32) : LinkAddress :=
  let address : U64 := second_dword.setWidth 64 <<< 32 ||| first_dword.setWidth 64
  if link_type = 0 then .MemoryMappedSpace address
  else
    let (n, reserved, function, device) : U8 × U16 × U8 × U8 := runBits first_dword do
      let n ← bits 3
      let reserved ← bits 9
      let function ← bits 3
      let device ← bits 5
      return (n, reserved, function, device)
    let n : U8 := if n = 0 then 8 else n
    let bus : U8 := ((first_dword >>> 20) &&& ~~~(0xffffffff#32 <<< n.toNat)).setWidth 8
    let laddr_mask := 0xffffffffffffffff#64 <<< (20 + n.toNat)
    let address := address &&& laddr_mask
    .ConfigurationSpace n reserved function device bus address

/-- src/extended_capabilities/root_complex_link_declaration.rs:400-422 -/
def LinkAddress.toDwords : LinkAddress → U32 × U32
  | .MemoryMappedSpace qword => (qword.setWidth 32, (qword >>> 32).setWidth 32)
  | .ConfigurationSpace n reserved function device bus address =>
    (address.setWidth 32
      ||| bus.setWidth 32 <<< 20
      ||| device.setWidth 32 <<< 15
      ||| function.setWidth 32 <<< 12
      ||| reserved.setWidth 32 <<< 3
      ||| (if n = 8 then 0 else n).setWidth 32,
    (address >>> 32).setWidth 32)

/-- src/extended_capabilities/root_complex_link_declaration.rs:246-258 -/
def LinkEntries.new (slice : Bytes) (number_of_link_entries : U8) : LinkEntries :=
  let length := number_of_link_entries.toNat * 16
  { chunks := slice.take (min slice.length length)
    state :=
      if slice.length ≥ length then .Valid
      else if slice.length % 16 = 0 then .Incomplete
      else .Invalid }

/-- src/extended_capabilities/root_complex_link_declaration.rs:267-284 -/
def LinkEntries.next (s : LinkEntries) : Option (LinkEntry × LinkEntries) := do
  let (slice, chunks) ← chunk 16 s.chunks
  let ((link_description, addr_low, addr_high), _) ← (do
    let link_description ← le32
    let _ ← bytesN 4
    let addr_low ← le32
    let addr_high ← le32
    return (link_description, addr_low, addr_high) : BP (U32 × U32 × U32)) slice
  let link_description := LinkDescription.ofU32 link_description
  some ({
    link_description := link_description
    link_address := LinkAddress.new link_description.link_type addr_low addr_high },
    { s with chunks := chunks })

/-- src/extended_capabilities/root_complex_link_declaration.rs:126-165 -/
def RootComplexLinkDeclaration.ofBytes (slice : Bytes) :
    Res RootComplexLinkDeclarationError RootComplexLinkDeclaration := do
  let (element_self_description, slice) ← BP.seq le32 .ElementSelfDescription slice
  let element_self_description := ElementSelfDescription.ofU32 element_self_description
  if element_self_description.number_of_link_entries < 1 then
    .err (.NumberOfLinkEntries element_self_description)
  else do
    let (_, slice) ← BP.seq (bytesN 8) (.ReservedSpace element_self_description) slice
    if slice.length < 16 then
      .err (.LinkEntry1 element_self_description)
    else
      .ok {
        element_self_description := element_self_description
        link_entries := LinkEntries.new slice element_self_description.number_of_link_entries }

end Pcics.RootComplexLinkDeclaration
