import Verif.Model.Ext.SecondaryPciExpress
import Verif.Spec
import Verif.Spec.Cap.PciExpress
/- Specification of src/extended_capabilities/secondary_pci_express.rs: positions and value tables. -/

namespace Pcics.SecondaryPciExpress
open Spec
open PciExpress (LinkWidth ReceiverPresetHint SupportedLinkSpeedsVector TransmitterPreset)

/-- Layout of `LinkControl3`. -/
def LinkControl3.spec (w : U32) : LinkControl3 :=
  {
    perform_equalization := flag w 0, link_equalization_request_interrupt_enable := flag w 1,
    lower_skp_os_generation_vector := {
      speed_2_5_gtps := flag w 9, speed_5_0_gtps := flag w 10, speed_8_0_gtps := flag w 11,
      speed_16_0_gtps := flag w 12, speed_32_0_gtps := flag w 13, speed_64_0_gtps := flag w 14,
      reserved := flag w 15 } }

/-- Layout of `LaneEqualizationControl`. -/
def LaneEqualizationControl.spec (w : U16) : LaneEqualizationControl :=
  {
    downstream_port_transmitter_preset := TransmitterPreset.spec (fld w 0 4),
    downstream_port_receiver_preset_hint := ReceiverPresetHint.spec (fld w 4 3),
    upstream_port_transmitter_preset := TransmitterPreset.spec (fld w 8 4),
    upstream_port_receiver_preset_hint := ReceiverPresetHint.spec (fld w 12 3) }

/-- Layout of the structure (offsets without the four header bytes). -/
def SecondaryPciExpress.spec (d : Bytes) : SecondaryPciExpress :=
  {
    ecl_data := d.drop 8, link_control_3 := LinkControl3.spec (rd32 d 0),
    lane_error_status := ⟨rd32 d 4⟩ }

/-- Number of lanes of a link width. -/
def laneCount : LinkWidth → Nat
  | .X1 => 1 | .X2 => 2 | .X4 => 4 | .X8 => 8 | .X12 => 12 | .X16 => 16 | .X32 => 32
  | .Reserved v => v.toNat

/-- The Lane Equalization Control registers of lanes 0, 1, ..: one word each. -/
def lanes (d : Bytes) (n : Nat) : List LaneEqualizationControl :=
  (List.range n).map fun i => LaneEqualizationControl.spec (rd16 d (2 * i))

end Pcics.SecondaryPciExpress
