import Verif.Model.Ext.MultifunctionVirtualChannel
import Verif.Spec.Ext.VirtualChannel
/- Specification of src/extended_capabilities/multifunction_virtual_channel.rs: positions and value tables. -/

namespace Pcics.MultifunctionVirtualChannel
open Spec

/-- Values of `FunctionArbitrationSelect`. -/
def FunctionArbitrationSelect.spec (c : U8) : FunctionArbitrationSelect :=
  pick c [(0, .HardwareFixedArbitration), (1, .Wrr32phases), (2, .Wrr64phases),
    (3, .Wrr128phases), (4, .TimeBasedWrr128phases), (5, .Wrr256phases)] (.Reserved c)

/-- Layout of `PortVcCapability1`. -/
def PortVcCapability1.spec (w : U32) : PortVcCapability1 :=
  {
    extended_vc_count := fld w 0 3, low_priority_extended_vc_count := fld w 4 3,
    reference_clock := .spec (fld w 8 2),
    function_arbitration_table_entry_size := ⟨fld w 10 2⟩ }

/-- Layout of `VcResourceCapability`. -/
def VcResourceCapability.spec (w : U32) : VcResourceCapability :=
  {
    function_arbitration_capability := {
      hardware_fixed_arbitration := flag w 0, wrr_32_phases := flag w 1,
      wrr_64_phases := flag w 2, wrr_128_phases := flag w 3,
      time_based_wrr_128_phases := flag w 4, wrr_256_phases := flag w 5, reserved := fld w 6 2 },
    maximum_time_slots := fld w 16 7, function_arbitration_table_offset := fld w 24 8 }

/-- Layout of `VcResourceControl`. -/
def VcResourceControl.spec (w : U32) : VcResourceControl :=
  {
    tc_to_vc_map := fld w 0 8, load_function_arbitration_table := flag w 16,
    function_arbitration_select := FunctionArbitrationSelect.spec (fld w 17 3),
    vc_id := fld w 24 3, vc_enable := flag w 31 }

/-- Layout of `VcResourceStatus`. -/
def VcResourceStatus.spec (w : U16) : VcResourceStatus :=
  {
    function_arbitration_table_status := flag w 0, vc_negotiation_pending := flag w 1 }

/-- The bits of a VC resource that are not reserved. -/
def usedBits : Bytes := [0xff, 0, 0x7f, 0xff, 0xff, 0, 0x0f, 0x87, 0, 0, 0x03, 0]

/-- The VC resource whose registers start at byte `i`, in a capability with function arbitration
table entries of `size` bits; its table (if any: the offset is at least 2, in units of 16 bytes from
the start of the capability) must be inside the capability. -/
def ExtendedVirtualChannel.spec (size : Nat) (d : Bytes) (i : Nat) : ExtendedVirtualChannel :=
  let offset := (fld (rd32 d i) 24 8 : U8).toNat
  let length := size * VirtualChannel.portPhases (fld (rd32 d (i + 4)) 17 3) / 8
  {
    vc_resource_capability := .spec (rd32 d i), vc_resource_control := .spec (rd32 d (i + 4)),
    vc_resource_status := .spec (rd16 d (i + 10)),
    function_arbitration_table :=
      if 2 ≤ offset ∧ 16 * offset + length ≤ d.length then
        some { data := (d.drop (16 * offset)).take length, entry_size_bits := size, shift := 0, byte := 0 }
      else none }

/-- The VC arbitration table: none for offset 0, not allowed in the first two 16-byte units. -/
def vcTable (d : Bytes) :
    Res MultifunctionVirtualChannelError (Option VirtualChannel.VcArbitrationTable) :=
  let offset := (fld (rd32 d 8) 24 8 : U8).toNat
  let length := VirtualChannel.vcPhases (fld (rd16 d 12) 1 3) / 2
  if offset = 0 then .ok none
  else if offset = 1 then .err .VcArbitrationTableOffset
  else if d.length < 16 * offset then .err .VcArbitrationTableData
  else if d.length < 16 * offset + length then
    .err (.VcArbitrationTableLength length (d.length - 16 * offset))
  else .ok (some { data := (d.drop (16 * offset)).take length, vate := none })

/-- Layout of `MultifunctionVirtualChannel` (the data includes the extended capability header), with
VC arbitration table `t`. -/
def MultifunctionVirtualChannel.spec (d : Bytes) (t : Option VirtualChannel.VcArbitrationTable) :
    MultifunctionVirtualChannel :=
  {
    port_vc_capability_1 := .spec (rd32 d 4), port_vc_capability_2 := .spec (rd32 d 8),
    port_vc_control := .spec (rd16 d 12), port_vc_status := .spec (rd16 d 14),
    vc_arbitration_table := t,
    extended_virtual_channels := {
      data := d, count := fld (rd32 d 4) 0 3 + 1, offset := 16,
      fat_entry_bits := 2 ^ (fld (rd32 d 4) 10 2 : U8).toNat } }

end Pcics.MultifunctionVirtualChannel
