import Verif.Model.Capabilities
import Verif.Model.Cap.EnhancedAllocation
import Verif.Model.ExtendedCapabilities
import Verif.Model.Ext.AccessControlServices
import Verif.Model.Ext.ResizableBar
import Verif.Model.Ext.SecondaryPciExpress
import Verif.Model.Ext.ProtocolMultiplexing
import Verif.Model.Ext.RootComplexLinkDeclaration
import Verif.Model.Ext.VirtualChannel
import Verif.Model.Ext.MultifunctionVirtualChannel
/-
`Iterator::next` of the inner iterators with the state that is left behind, also after a `None`.
The functions `next` in the modules of the capabilities forget the state after a `None`; that these
agree with them otherwise is proved in Lemmas/Step.lean.
-/

namespace Pcics

/-- src/extended_capabilities/resizable_bar.rs:137-151: the chunk is consumed before it is found too
short. -/
def ResizableBar.ResizableBar.step (s : ResizableBar.ResizableBar) :
    Option ResizableBar.ResizableBarEntry × ResizableBar.ResizableBar :=
  match chunk 8 s.val with
  | none => (none, s)
  | some (bytes, rest) =>
    let s := { s with val := rest }
    match (do
      let cap ← le32
      let ctrl ← le32
      return (cap, ctrl) : BP (U32 × U32)) bytes with
    | none => (none, s)
    | some ((cap, ctrl), _) => (some { capability := .ofU32 cap, control := .ofU32 ctrl }, s)

/-- src/extended_capabilities/access_control_services.rs:212-234 -/
def AccessControlServices.EgressControlVectors.step
    (s : AccessControlServices.EgressControlVectors) :
    Option Bool × AccessControlServices.EgressControlVectors :=
  let read (s : AccessControlServices.EgressControlVectors) :=
    (some ((s.dword &&& s.mask) != 0),
      { s with mask := s.mask.rotateLeft 1, size := s.size - 1 })
  if s.size = 0 then (none, s)
  else if s.mask = 1 then
    match chunk 4 s.chunks with
    | none => (none, s)
    | some (bytes, rest) =>
      read { s with chunks := rest, dword := AccessControlServices.chunkWord bytes }
  else read s

/-- src/extended_capabilities/protocol_multiplexing.rs:316-331 -/
def ProtocolMultiplexing.PmuxProtocolArray.step (s : ProtocolMultiplexing.PmuxProtocolArray) :
    Option ProtocolMultiplexing.PmuxProtocolArrayEntry × ProtocolMultiplexing.PmuxProtocolArray :=
  match chunk 4 s.val with
  | none => (none, s)
  | some (slice, rest) =>
    let s := { s with val := rest }
    match (do
      let protocol_id ← le16
      let authority_id ← le16
      return (protocol_id, authority_id) : BP (U16 × U16)) slice with
    | none => (none, s)
    | some ((protocol_id, authority_id), _) =>
      (some { protocol_id := protocol_id, authority_id := authority_id }, s)

/-- src/extended_capabilities/secondary_pci_express.rs:165-172 -/
def SecondaryPciExpress.EqualizationControlLanes.step
    (s : SecondaryPciExpress.EqualizationControlLanes) :
    Option SecondaryPciExpress.LaneEqualizationControl ×
      SecondaryPciExpress.EqualizationControlLanes :=
  match chunk 2 s.chunks with
  | none => (none, s)
  | some (bytes, rest) =>
    let s := { s with chunks := rest }
    match bytes with
    | [a, b] => (some (.ofU16 (b ++ a)), s)
    | _ => (none, s)

/-- src/extended_capabilities/root_complex_link_declaration.rs:267-284 -/
def RootComplexLinkDeclaration.LinkEntries.step (s : RootComplexLinkDeclaration.LinkEntries) :
    Option RootComplexLinkDeclaration.LinkEntry × RootComplexLinkDeclaration.LinkEntries :=
  match chunk 16 s.chunks with
  | none => (none, s)
  | some (slice, rest) =>
    let s := { s with chunks := rest }
    match (do
      let link_description ← le32
      let _ ← bytesN 4
      let addr_low ← le32
      let addr_high ← le32
      return (link_description, addr_low, addr_high) : BP (U32 × U32 × U32)) slice with
    | none => (none, s)
    | some ((link_description, addr_low, addr_high), _) =>
      let link_description := RootComplexLinkDeclaration.LinkDescription.ofU32 link_description
      (some {
        link_description := link_description
        link_address := .new link_description.link_type addr_low addr_high }, s)

/-- src/capabilities/enhanced_allocation.rs:122-193: `next` without the panic of `Res`, which
`ea_next` shows not to happen. -/
def EnhancedAllocation.EnhancedAllocationEntries.step (real : Bool)
    (s : EnhancedAllocation.EnhancedAllocationEntries) :
    Option EnhancedAllocation.EnhancedAllocationEntry ×
      EnhancedAllocation.EnhancedAllocationEntries :=
  match s.next real with
  | .ok r => r
  | _ => (none, s)

namespace VirtualChannel

/-- src/extended_capabilities/virtual_channel.rs:615-627: `take` empties `vate` first. -/
def VcArbitrationTable.step (t : VcArbitrationTable) :
    Option VcArbitrationTableEntry × VcArbitrationTable :=
  let vate := t.vate
  let t := { t with vate := none }
  match vate with
  | some vate => (some vate, t)
  | none =>
    match t.data with
    | [] => (none, t)
    | byte :: data =>
      let pair := VatEntryPair.ofU8 byte
      (some pair.curr, { data := data, vate := some pair.next })

/-- src/extended_capabilities/virtual_channel.rs:404-421 -/
def PortArbitrationTable.step (t : PortArbitrationTable) :
    Option PortArbitrationTableEntry × PortArbitrationTable :=
  let read (t : PortArbitrationTable) : Option PortArbitrationTableEntry × PortArbitrationTable :=
    let init_mask : U8 := ~~~(0xff#8 <<< t.entry_size_bits)
    let mask := init_mask <<< t.shift
    let result := (t.byte &&& mask) >>> t.shift
    (some ⟨result⟩, { t with shift := (t.shift + t.entry_size_bits) % 8 })
  if t.entry_size_bits = 8 then
    match t.data with
    | [] => (none, t)
    | v :: data => (some ⟨v⟩, { t with data := data })
  else if t.shift = 0 then
    match t.data with
    | [] => (none, t)
    | byte :: data => read { t with data := data, byte := byte }
  else read t

/-- src/extended_capabilities/virtual_channel.rs:257-279 -/
def ExtendedVirtualChannels.step (s : ExtendedVirtualChannels) :
    Option (Res ExtendedVirtualChannelError ExtendedVirtualChannel) × ExtendedVirtualChannels :=
  if s.count = 0 then (none, s)
  else
    match getRange s.data s.offset (s.offset + 12) with
    | none => (none, s)
    | some slice =>
      (some (ExtendedVirtualChannel.ofBytes ⟨s.count, s.offset⟩ slice),
        { s with count := s.count - 1, offset := s.offset + 12 })

end VirtualChannel

namespace MultifunctionVirtualChannel

/-- src/extended_capabilities/multifunction_virtual_channel.rs:612-629 -/
def FunctionArbitrationTable.step (t : FunctionArbitrationTable) :
    Option FunctionArbitrationTableEntry × FunctionArbitrationTable :=
  let read (t : FunctionArbitrationTable) :
      Option FunctionArbitrationTableEntry × FunctionArbitrationTable :=
    let init_mask : U8 := ~~~(0xff#8 <<< t.entry_size_bits)
    let mask := init_mask <<< t.shift
    let result := (t.byte &&& mask) >>> t.shift
    (some ⟨result⟩, { t with shift := (t.shift + t.entry_size_bits) % 8 })
  if t.entry_size_bits = 8 then
    match t.data with
    | [] => (none, t)
    | v :: data => (some ⟨v⟩, { t with data := data })
  else if t.shift = 0 then
    match t.data with
    | [] => (none, t)
    | byte :: data => read { t with data := data, byte := byte }
  else read t

/-- src/extended_capabilities/multifunction_virtual_channel.rs:297-325 -/
def ExtendedVirtualChannels.step (s : ExtendedVirtualChannels) :
    Option ExtendedVirtualChannel × ExtendedVirtualChannels :=
  if s.count = 0 then (none, s)
  else
    match getFrom s.data s.offset with
    | none => (none, s)
    | some slice =>
      match ExtendedVirtualChannel.ofBytes slice with
      | none => (none, s)
      | some evc =>
        let fat_offset := evc.vc_resource_capability.function_arbitration_table_offset.toNat
        let evc :=
          if 2 ≤ fat_offset then
            let offset := fat_offset * 0x10
            let number_of_entries :=
              evc.vc_resource_control.function_arbitration_select.function_arbitration_table_length
            let length := s.fat_entry_bits * number_of_entries / 8
            { evc with
              function_arbitration_table := (getRange s.data offset (offset + length)).map
                fun data => FunctionArbitrationTable.new data s.fat_entry_bits }
          else evc
        (some evc, { s with count := s.count - 1, offset := s.offset + 12 })

end MultifunctionVirtualChannel
end Pcics
