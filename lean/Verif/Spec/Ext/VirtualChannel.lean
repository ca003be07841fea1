import Verif.Model.Ext.VirtualChannel
import Verif.Spec
/- Specification of src/extended_capabilities/virtual_channel.rs: positions and value tables. -/

namespace Pcics.VirtualChannel
open Spec

/-- Values of `ReferenceClock`. -/
def ReferenceClock.spec (c : U8) : ReferenceClock :=
  pick c [(0, .Rc100ns)] (.Reserved c)

/-- Values of `PortArbitrationSelect`. -/
def PortArbitrationSelect.spec (c : U8) : PortArbitrationSelect :=
  pick c [(0, .HardwareFixedArbitration), (1, .Wrr32phases), (2, .Wrr64phases),
    (3, .Wrr128phases), (4, .TimeBasedWrr128phases), (5, .Wrr256phases)] (.Reserved c)

/-- Values of `VcArbitrationSelect`. -/
def VcArbitrationSelect.spec (c : U8) : VcArbitrationSelect :=
  pick c [(0, .HardwareFixedArbitration), (1, .Wrr32phases), (2, .Wrr64phases),
    (3, .Wrr128phases)] (.Reserved c)

/-- Layout of `PortVcCapability1`. -/
def PortVcCapability1.spec (w : U32) : PortVcCapability1 :=
  {
    extended_vc_count := fld w 0 3, low_priority_extended_vc_count := fld w 4 3,
    reference_clock := ReferenceClock.spec (fld w 8 2),
    port_arbitration_table_entry_size := ⟨fld w 10 2⟩ }

/-- Layout of `VcResourceCapability`. -/
def VcResourceCapability.spec (w : U32) : VcResourceCapability :=
  {
    port_arbitration_capability := {
      hardware_fixed_arbitration := flag w 0, wrr_32_phases := flag w 1,
      wrr_64_phases := flag w 2, wrr_128_phases := flag w 3,
      time_based_wrr_128_phases := flag w 4, wrr_256_phases := flag w 5, reserved := fld w 6 2 },
    advanced_packet_switching := flag w 14, reject_snoop_transactions := flag w 15,
    maximum_time_slots := fld w 16 7, port_arbitration_table_offset := fld w 24 8 }

/-- Layout of `VcResourceControl`. -/
def VcResourceControl.spec (w : U32) : VcResourceControl :=
  {
    tc_or_vc_map := fld w 0 8, load_port_arbitration_table := flag w 16,
    port_arbitration_select := PortArbitrationSelect.spec (fld w 17 3), vc_id := fld w 24 3,
    vc_enable := flag w 31 }

/-- Layout of `VcResourceStatus`. -/
def VcResourceStatus.spec (w : U16) : VcResourceStatus :=
  { port_arbitration_table_status := flag w 0, vc_negotiation_pending := flag w 1 }

/-- Layout of `PortVcCapability2`. -/
def PortVcCapability2.spec (w : U32) : PortVcCapability2 :=
  {
    vc_arbitration_capability := {
      hardware_fixed_arbitration := flag w 0, wrr_32_phases := flag w 1,
      wrr_64_phases := flag w 2, wrr_128_phases := flag w 3, reserved := fld w 4 4 },
    vc_arbitration_table_offset := fld w 24 8 }

/-- Layout of `PortVcControl`. -/
def PortVcControl.spec (w : U16) : PortVcControl :=
  {
    load_vc_arbitration_table := flag w 0,
    vc_arbitration_select := VcArbitrationSelect.spec (fld w 1 3) }

/-- Layout of `PortVcStatus`. -/
def PortVcStatus.spec (w : U16) : PortVcStatus :=
  { vc_arbitration_table_status := flag w 0 }

/-- Layout of `VirtualChannel` after the extended capability header. -/
def VirtualChannel.spec (d : Bytes) : VirtualChannel :=
  {
    data := d, port_vc_capability_1 := .spec (rd32 d 0), port_vc_capability_2 := .spec (rd32 d 4),
    port_vc_control := .spec (rd16 d 8), port_vc_status := .spec (rd16 d 10) }

/-- The VC resource whose registers start at byte `i`. -/
def ExtendedVirtualChannel.spec (d : Bytes) (i : Nat) : ExtendedVirtualChannel :=
  {
    vc_resource_capability := .spec (rd32 d i), vc_resource_control := .spec (rd32 d (i + 4)),
    vc_resource_status := .spec (rd16 d (i + 10)) }

/-- Phases of each port (function) arbitration scheme. -/
def portPhases (code : U8) : Nat := pick code [(1, 32), (2, 64), (3, 128), (4, 128), (5, 256)] 0

/-- Phases of each VC arbitration scheme. -/
def vcPhases (code : U8) : Nat := pick code [(1, 32), (2, 64), (3, 128)] 0

/-- VC arbitration table: two entries per byte, low nibble first, VC ID in the low 3 bits. -/
def vcArbitrationEntries (t : Bytes) : List VcArbitrationTableEntry :=
  t.flatMap fun b => [⟨fld b 0 3⟩, ⟨fld b 4 3⟩]

end Pcics.VirtualChannel
