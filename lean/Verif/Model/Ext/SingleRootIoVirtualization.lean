import Verif.Model.Common
import Verif.Model.Header
/- Model of src/extended_capabilities/single_root_io_virtualization.rs -/

namespace Pcics.SingleRootIoVirtualization

/-- src/extended_capabilities/single_root_io_virtualization.rs:18-23 -/
inductive SingleRootIoVirtualizationError where
  | ElementSelfDescription
  | LinkEntries
  deriving DecidableEq, Repr

/-- src/extended_capabilities/single_root_io_virtualization.rs:103-112 -/
structure SriovCapabilities where
  vf_migration_capable : Bool
  ari_capable_hierarchy_preserved : Bool
  vf_10bit_tag_requester_supported : Bool
  vf_migration_interrupt_message_number : U16
  deriving DecidableEq, Repr

/-- src/extended_capabilities/single_root_io_virtualization.rs:136-149 -/
structure SriovControl where
  vf_enable : Bool
  vf_migration_enable : Bool
  vf_migration_interrupt_enable : Bool
  vf_mse : Bool
  ari_capable_hierarchy : Bool
  vf_10bit_tag_requester_enable : Bool
  deriving DecidableEq, Repr

/-- src/extended_capabilities/single_root_io_virtualization.rs:176-179 -/
structure SriovStatus where
  vf_migration_status : Bool
  deriving DecidableEq, Repr

/-- src/extended_capabilities/single_root_io_virtualization.rs:197-202 -/
structure PageSizes where
  supported : U32
  system : U32
  deriving DecidableEq, Repr

/-- src/extended_capabilities/single_root_io_virtualization.rs:28-53 -/
structure SingleRootIoVirtualization where
  sriov_capabilities : SriovCapabilities
  sriov_control : SriovControl
  sriov_status : SriovStatus
  initial_vfs : U16
  total_vfs : U16
  num_vfs : U16
  function_dependency_link : U8
  first_vf_offset : U16
  vf_stride : U16
  vf_device_id : U16
  page_sizes : PageSizes
  base_addresses : Header.BaseAddresses
  vf_migration_state_array_offset : U32
  deriving DecidableEq, Repr

/-- src/extended_capabilities/single_root_io_virtualization.rs:113-133 (`From<u32>`, `FromLeBytes<4>`) -/
def SriovCapabilities.ofU32 (w : U32) : SriovCapabilities := runBits w do
  let vf_migration_capable ← bit
  let ari_capable_hierarchy_preserved ← bit
  let vf_10bit_tag_requester_supported ← bit
  skip 18
  let vf_migration_interrupt_message_number ← bits 11
  return {
    vf_migration_capable := vf_migration_capable,
    ari_capable_hierarchy_preserved := ari_capable_hierarchy_preserved,
    vf_10bit_tag_requester_supported := vf_10bit_tag_requester_supported,
    vf_migration_interrupt_message_number := vf_migration_interrupt_message_number }

/-- src/extended_capabilities/single_root_io_virtualization.rs:150-173 (`From<u16>`, `FromLeBytes<2>`) -/
def SriovControl.ofU16 (w : U16) : SriovControl := runBits w do
  let vf_enable ← bit
  let vf_migration_enable ← bit
  let vf_migration_interrupt_enable ← bit
  let vf_mse ← bit
  let ari_capable_hierarchy ← bit
  let vf_10bit_tag_requester_enable ← bit
  return {
    vf_enable := vf_enable, vf_migration_enable := vf_migration_enable,
    vf_migration_interrupt_enable := vf_migration_interrupt_enable, vf_mse := vf_mse,
    ari_capable_hierarchy := ari_capable_hierarchy,
    vf_10bit_tag_requester_enable := vf_10bit_tag_requester_enable }

/-- src/extended_capabilities/single_root_io_virtualization.rs:180-193 (`From<u16>`, `FromLeBytes<2>`) -/
def SriovStatus.ofU16 (w : U16) : SriovStatus := runBits w do
  let vf_migration_status ← bit
  return { vf_migration_status := vf_migration_status }

/-- src/extended_capabilities/single_root_io_virtualization.rs:59-86 (`From<[u8; 60]>`) -/
def SingleRootIoVirtualization.parse : BP SingleRootIoVirtualization := do
  let sriov_capabilities ← le32
  let sriov_control ← le16
  let sriov_status ← le16
  let initial_vfs ← le16
  let total_vfs ← le16
  let num_vfs ← le16
  let function_dependency_link ← le8
  let _ ← le8
  let first_vf_offset ← le16
  let vf_stride ← le16
  let _ ← le16
  let vf_device_id ← le16
  let supported_page_sizes ← le32
  let system_page_sizes ← le32
  let base_addresses ← le32s 6
  let vf_migration_state_array_offset ← le32
  return {
    sriov_capabilities := SriovCapabilities.ofU32 sriov_capabilities,
    sriov_control := SriovControl.ofU16 sriov_control,
    sriov_status := SriovStatus.ofU16 sriov_status,
    initial_vfs := initial_vfs, total_vfs := total_vfs, num_vfs := num_vfs,
    function_dependency_link := function_dependency_link,
    first_vf_offset := first_vf_offset, vf_stride := vf_stride, vf_device_id := vf_device_id,
    page_sizes := { supported := supported_page_sizes, system := system_page_sizes },
    base_addresses := Header.BaseAddresses.new base_addresses,
    vf_migration_state_array_offset := vf_migration_state_array_offset }

/-- src/extended_capabilities/single_root_io_virtualization.rs:88-99 (`TryFrom<&[u8]>`) -/
def SingleRootIoVirtualization.ofBytes (slice : Bytes) :
    Res ExtendedCapabilityDataError SingleRootIoVirtualization := do
  let slice ← Res.okOr { name := "Single Root I/O Virtualization", size := 60 } (getTo slice 60)
  BP.arr SingleRootIoVirtualization.parse slice

end Pcics.SingleRootIoVirtualization
