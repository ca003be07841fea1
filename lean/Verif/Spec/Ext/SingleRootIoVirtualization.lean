import Verif.Model.Ext.SingleRootIoVirtualization
import Verif.Spec
/- Specification of src/extended_capabilities/single_root_io_virtualization.rs: positions and value tables. -/

namespace Pcics.SingleRootIoVirtualization
open Spec

/-- Layout of `SriovCapabilities`. -/
def SriovCapabilities.spec (w : U32) : SriovCapabilities :=
  {
    vf_migration_capable := flag w 0, ari_capable_hierarchy_preserved := flag w 1,
    vf_10bit_tag_requester_supported := flag w 2,
    vf_migration_interrupt_message_number := fld w 21 11 }

/-- Layout of `SriovControl`. -/
def SriovControl.spec (w : U16) : SriovControl :=
  {
    vf_enable := flag w 0, vf_migration_enable := flag w 1,
    vf_migration_interrupt_enable := flag w 2, vf_mse := flag w 3,
    ari_capable_hierarchy := flag w 4, vf_10bit_tag_requester_enable := flag w 5 }

/-- Layout of `SriovStatus`. -/
def SriovStatus.spec (w : U16) : SriovStatus :=
  { vf_migration_status := flag w 0 }

/-- Layout of the structure (offsets without the four header bytes). -/
def SingleRootIoVirtualization.spec (d : Bytes) : SingleRootIoVirtualization :=
  {
    sriov_capabilities := SriovCapabilities.spec (rd32 d 0),
    sriov_control := SriovControl.spec (rd16 d 4), sriov_status := SriovStatus.spec (rd16 d 6),
    initial_vfs := rd16 d 8, total_vfs := rd16 d 10, num_vfs := rd16 d 12,
    function_dependency_link := byteAt d 14, first_vf_offset := rd16 d 16,
    vf_stride := rd16 d 18, vf_device_id := rd16 d 22,
    page_sizes := { supported := rd32 d 24, system := rd32 d 28 },
    base_addresses := { data := rd32s d 32 6, region := 0 },
    vf_migration_state_array_offset := rd32 d 56 }

end Pcics.SingleRootIoVirtualization
