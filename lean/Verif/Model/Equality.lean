import Verif.Model.Header
import Verif.Model.Ext.AccessControlServices
import Verif.Model.Ext.MultifunctionVirtualChannel
import Verif.Model.Ext.ProtocolMultiplexing
import Verif.Model.Ext.ResizableBar
import Verif.Model.Ext.RootComplexLinkDeclaration
import Verif.Model.Ext.VirtualChannel
import Verif.Model.ExtendedCapabilities
/- Model of the hand-written `PartialEq` of the iterators (that of `BaseAddresses` is in
Verif.Model.Header), and of the derived ones that compare parts by them. All other `PartialEq` of the
crate are derived and compare every field. -/

namespace Pcics

/-- `core::iter::Iterator::eq`: items are compared pairwise until one side ends. `fuel` bounds the
number of steps; it is given as the number of bytes both sides have left, each item using up at
least one (the theorems show that more fuel makes no difference). -/
def iterEq {σ α : Type} [DecidableEq α] (next : σ → Option (α × σ)) : Nat → σ → σ → Bool
  | 0, _, _ => true
  | fuel + 1, s, t =>
    match next s, next t with
    | none, none => true
    | some (a, s'), some (b, t') => a == b && iterEq next fuel s' t'
    | _, _ => false

/-- `a.clone().eq(b.clone())` for two `slice::Chunks` of `n` bytes -/
def chunksEq (n : Nat) (a b : Bytes) : Bool := iterEq (chunk n) (a.length + b.length) a b

/-- `core::slice::Iter::next` for bytes -/
def bytesNext : Bytes → Option (U8 × Bytes)
  | [] => none
  | x :: r => some (x, r)

/-- `a.clone().eq(b.clone())` for two `slice::Iter<u8>` -/
def bytesEq (a b : Bytes) : Bool := iterEq bytesNext (a.length + b.length) a b

/-- src/extended_capabilities/access_control_services.rs:203-210 -/
def AccessControlServices.EgressControlVectors.eq
    (a b : AccessControlServices.EgressControlVectors) : Bool :=
  chunksEq 4 a.chunks b.chunks && a.dword == b.dword && a.mask == b.mask && a.size == b.size

/-- src/extended_capabilities/multifunction_virtual_channel.rs:631-638 -/
def MultifunctionVirtualChannel.FunctionArbitrationTable.eq
    (a b : MultifunctionVirtualChannel.FunctionArbitrationTable) : Bool :=
  bytesEq a.data b.data && a.entry_size_bits == b.entry_size_bits && a.shift == b.shift
    && a.byte == b.byte

/-- src/extended_capabilities/protocol_multiplexing.rs:308-312 -/
def ProtocolMultiplexing.PmuxProtocolArray.eq
    (a b : ProtocolMultiplexing.PmuxProtocolArray) : Bool :=
  chunksEq 4 a.val b.val

/-- src/extended_capabilities/resizable_bar.rs:104-108 -/
def ResizableBar.ResizableBar.eq (a b : ResizableBar.ResizableBar) : Bool :=
  chunksEq 8 a.val b.val

/-- src/extended_capabilities/root_complex_link_declaration.rs:261-265; `eq` on a value (not a
reference) is `Iterator::eq`. -/
def RootComplexLinkDeclaration.LinkEntries.eq
    (a b : RootComplexLinkDeclaration.LinkEntries) : Bool :=
  iterEq RootComplexLinkDeclaration.LinkEntries.next (a.chunks.length + b.chunks.length) a b

/-- src/extended_capabilities/virtual_channel.rs:628-632 -/
def VirtualChannel.VcArbitrationTable.eq (a b : VirtualChannel.VcArbitrationTable) : Bool :=
  bytesEq a.data b.data && a.vate == b.vate

/-- src/extended_capabilities/virtual_channel.rs:422-428 -/
def VirtualChannel.PortArbitrationTable.eq (a b : VirtualChannel.PortArbitrationTable) : Bool :=
  bytesEq a.data b.data && a.entry_size_bits == b.entry_size_bits && a.shift == b.shift

/-- src/header.rs:418-435: derived, the fields in turn -/
def Header.Normal.eq (a b : Header.Normal) : Bool :=
  a.base_addresses.eq b.base_addresses && a.cardbus_cis_pointer == b.cardbus_cis_pointer
    && a.sub_vendor_id == b.sub_vendor_id && a.sub_device_id == b.sub_device_id
    && a.expansion_rom == b.expansion_rom && a.min_grant == b.min_grant
    && a.max_latency == b.max_latency

/-- src/header.rs:438-461: derived, the fields in turn -/
def Header.Bridge.eq (a b : Header.Bridge) : Bool :=
  a.base_addresses.eq b.base_addresses && a.primary_bus_number == b.primary_bus_number
    && a.secondary_bus_number == b.secondary_bus_number
    && a.subordinate_bus_number == b.subordinate_bus_number
    && a.secondary_latency_timer == b.secondary_latency_timer
    && a.io_address_range == b.io_address_range && a.secondary_status == b.secondary_status
    && a.memory_base == b.memory_base && a.memory_limit == b.memory_limit
    && a.prefetchable_memory == b.prefetchable_memory && a.expansion_rom == b.expansion_rom
    && a.bridge_control == b.bridge_control

/-- src/header.rs:576-608: derived, the fields in turn -/
def Header.Cardbus.eq (a b : Header.Cardbus) : Bool :=
  a.base_addresses.eq b.base_addresses && a.secondary_status == b.secondary_status
    && a.pci_bus_number == b.pci_bus_number && a.cardbus_bus_number == b.cardbus_bus_number
    && a.subordinate_bus_number == b.subordinate_bus_number
    && a.cardbus_latency_timer == b.cardbus_latency_timer
    && a.memory_base_address_0 == b.memory_base_address_0
    && a.memory_limit_address_0 == b.memory_limit_address_0
    && a.memory_base_address_1 == b.memory_base_address_1
    && a.memory_limit_address_1 == b.memory_limit_address_1
    && a.io_access_address_range_0 == b.io_access_address_range_0
    && a.io_access_address_range_1 == b.io_access_address_range_1
    && a.bridge_control == b.bridge_control && a.subsystem_vendor_id == b.subsystem_vendor_id
    && a.subsystem_device_id == b.subsystem_device_id
    && a.legacy_mode_base_address == b.legacy_mode_base_address && a.reserved == b.reserved

/-- src/header.rs:383-389: derived, the same variant with equal contents -/
def Header.HeaderType.eq : Header.HeaderType → Header.HeaderType → Bool
  | .Normal a, .Normal b => a.eq b
  | .Bridge a, .Bridge b => a.eq b
  | .Cardbus a, .Cardbus b => a.eq b
  | .Reserved a, .Reserved b => a == b
  | _, _ => false

/-- src/header.rs:145-176: derived, the fields in turn -/
def Header.Header.eq (a b : Header.Header) : Bool :=
  a.vendor_id == b.vendor_id && a.device_id == b.device_id && a.command == b.command
    && a.status == b.status && a.revision_id == b.revision_id && a.class_code == b.class_code
    && a.cache_line_size == b.cache_line_size && a.latency_timer == b.latency_timer
    && a.is_multi_function == b.is_multi_function && a.header_type.eq b.header_type
    && a.bist == b.bist && a.capabilities_pointer == b.capabilities_pointer
    && a.interrupt_line == b.interrupt_line && a.interrupt_pin == b.interrupt_pin

/-- src/extended_capabilities/root_complex_link_declaration.rs:121-125: derived, the fields in turn -/
def RootComplexLinkDeclaration.RootComplexLinkDeclaration.eq
    (a b : RootComplexLinkDeclaration.RootComplexLinkDeclaration) : Bool :=
  a.element_self_description == b.element_self_description && a.link_entries.eq b.link_entries

/-- `PartialEq` of `Option`, derived -/
def optionEq {α : Type} (eq : α → α → Bool) : Option α → Option α → Bool
  | none, none => true
  | some a, some b => eq a b
  | _, _ => false

/-- src/extended_capabilities/multifunction_virtual_channel.rs:143-155: derived, the fields in turn -/
def MultifunctionVirtualChannel.MultifunctionVirtualChannel.eq
    (a b : MultifunctionVirtualChannel.MultifunctionVirtualChannel) : Bool :=
  a.port_vc_capability_1 == b.port_vc_capability_1
    && a.port_vc_capability_2 == b.port_vc_capability_2 && a.port_vc_control == b.port_vc_control
    && a.port_vc_status == b.port_vc_status
    && optionEq VirtualChannel.VcArbitrationTable.eq a.vc_arbitration_table b.vc_arbitration_table
    && a.extended_virtual_channels == b.extended_virtual_channels

/-- src/extended_capabilities/protocol_multiplexing.rs:104-111: derived, the fields in turn -/
def ProtocolMultiplexing.ProtocolMultiplexing.eq
    (a b : ProtocolMultiplexing.ProtocolMultiplexing) : Bool :=
  a.pmux_capability == b.pmux_capability && a.pmux_control == b.pmux_control
    && a.pmux_status == b.pmux_status && a.pmux_protocol_array.eq b.pmux_protocol_array

/-- src/extended_capabilities.rs:517-629: derived, the same variant with equal contents; contents
without a part of hand-written equality are compared field by field -/
def ExtendedCapabilities.ExtendedCapabilityKind.eq :
    ExtendedCapabilities.ExtendedCapabilityKind → ExtendedCapabilities.ExtendedCapabilityKind → Bool
  | .RootComplexLinkDeclaration a, .RootComplexLinkDeclaration b => a.eq b
  | .MultifunctionVirtualChannel a, .MultifunctionVirtualChannel b => a.eq b
  | .ResizableBar a, .ResizableBar b => a.eq b
  | .ProtocolMultiplexing a, .ProtocolMultiplexing b => a.eq b
  | .VfResizableBar a, .VfResizableBar b => a.eq b
  | a, b => a == b

/-- src/extended_capabilities.rs:448-453: derived, the fields in turn -/
def ExtendedCapabilities.ExtendedCapability.eq
    (a b : ExtendedCapabilities.ExtendedCapability) : Bool :=
  a.kind.eq b.kind && a.version == b.version && a.offset == b.offset

end Pcics
