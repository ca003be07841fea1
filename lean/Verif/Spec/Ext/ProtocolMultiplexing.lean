import Verif.Model.Ext.ProtocolMultiplexing
import Verif.Spec
/- Specification of src/extended_capabilities/protocol_multiplexing.rs: positions and value tables. -/

namespace Pcics.ProtocolMultiplexing
open Spec

/-- Layout of `PmuxSupportedLinkSpeeds`. -/
def PmuxSupportedLinkSpeeds.spec (w : U8) : PmuxSupportedLinkSpeeds :=
  {
    speed_2_5_gtps := flag w 0, speed_5_0_gtps := flag w 1, speed_8_0_gtps := flag w 2,
    speed_16_0_gtps := flag w 3 }

/-- Layout of `PmuxCapability`. -/
def PmuxCapability.spec (w : U32) : PmuxCapability :=
  {
    pmux_protocol_array_size := fld w 0 6,
    pmux_supported_link_speeds := PmuxSupportedLinkSpeeds.spec (fld w 8 8) }

/-- Layout of `PmuxControl`. -/
def PmuxControl.spec (w : U32) : PmuxControl :=
  {
    pmux_channel_0_assignment := fld w 0 6, pmux_channel_1_assignment := fld w 8 6,
    pmux_channel_2_assignment := fld w 16 6, pmux_channel_3_assignment := fld w 24 6 }

/-- Layout of `PmuxStatus`. -/
def PmuxStatus.spec (w : U32) : PmuxStatus :=
  {
    pmux_channel_0_disabled_link_speed := flag w 0,
    pmux_channel_0_disabled_link_width := flag w 1,
    pmux_channel_0_disabled_link_protocol_specific := flag w 2,
    pmux_channel_1_disabled_link_speed := flag w 8,
    pmux_channel_1_disabled_link_width := flag w 9,
    pmux_channel_1_disabled_link_protocol_specific := flag w 10,
    pmux_channel_2_disabled_link_speed := flag w 16,
    pmux_channel_2_disabled_link_width := flag w 17,
    pmux_channel_2_disabled_link_protocol_specific := flag w 18,
    pmux_channel_3_disabled_link_speed := flag w 24,
    pmux_channel_3_disabled_link_width := flag w 25,
    pmux_channel_3_disabled_link_protocol_specific := flag w 26 }

/-- Number of bytes of the PMUX Protocol Array announced by the PMUX Capability register. -/
def arrayBytes (d : Bytes) : Nat := 4 * (fld (rd32 d 4) 0 6 : U8).toNat

/-- Layout of the structure (offsets with the header). -/
def ProtocolMultiplexing.spec (d : Bytes) : ProtocolMultiplexing :=
  {
    pmux_capability := PmuxCapability.spec (rd32 d 4),
    pmux_control := PmuxControl.spec (rd32 d 8), pmux_status := PmuxStatus.spec (rd32 d 12),
    pmux_protocol_array := ⟨(d.drop 16).take (arrayBytes d)⟩ }

/-- The entries 0, 1, .. of the PMUX Protocol Array in the data of the array. -/
def entries (d : Bytes) (n : Nat) : List PmuxProtocolArrayEntry :=
  (List.range n).map fun i =>
    { protocol_id := rd16 d (4 * i), authority_id := rd16 d (4 * i + 2) }

end Pcics.ProtocolMultiplexing
