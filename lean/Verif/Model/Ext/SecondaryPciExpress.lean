import Verif.Model.Common
import Verif.Model.Cap.PciExpress
/- Model of src/extended_capabilities/secondary_pci_express.rs -/

namespace Pcics.SecondaryPciExpress
open PciExpress (LinkWidth ReceiverPresetHint SupportedLinkSpeedsVector TransmitterPreset)

/-- src/extended_capabilities/secondary_pci_express.rs:108-116 -/
structure LinkControl3 where
  perform_equalization : Bool
  link_equalization_request_interrupt_enable : Bool
  lower_skp_os_generation_vector : SupportedLinkSpeedsVector
  deriving DecidableEq, Repr

/-- src/extended_capabilities/secondary_pci_express.rs:152-152 -/
structure LaneErrorStatus where
  val : U32
  deriving DecidableEq, Repr

/-- src/extended_capabilities/secondary_pci_express.rs:70-74 -/
structure SecondaryPciExpress where
  ecl_data : Bytes
  link_control_3 : LinkControl3
  lane_error_status : LaneErrorStatus
  deriving DecidableEq, Repr

/-- src/extended_capabilities/secondary_pci_express.rs:118-147 -/
def LinkControl3.ofU32 (w : U32) : LinkControl3 := runBits w do
  let perform_equalization ← bit
  let link_equalization_request_interrupt_enable ← bit
  skip 7
  let speed_2_5_gtps ← bit
  let speed_5_0_gtps ← bit
  let speed_8_0_gtps ← bit
  let speed_16_0_gtps ← bit
  let speed_32_0_gtps ← bit
  let speed_64_0_gtps ← bit
  let reserved ← bit
  skip 16
  return {
    perform_equalization := perform_equalization,
    link_equalization_request_interrupt_enable := link_equalization_request_interrupt_enable,
    lower_skp_os_generation_vector := {
      speed_2_5_gtps := speed_2_5_gtps, speed_5_0_gtps := speed_5_0_gtps,
      speed_8_0_gtps := speed_8_0_gtps, speed_16_0_gtps := speed_16_0_gtps,
      speed_32_0_gtps := speed_32_0_gtps, speed_64_0_gtps := speed_64_0_gtps,
      reserved := reserved } }

/-- src/extended_capabilities/secondary_pci_express.rs:155-157.  `Chunks` is the bytes not yet yielded. -/
structure EqualizationControlLanes where
  chunks : Bytes
  deriving DecidableEq, Repr

/-- src/extended_capabilities/secondary_pci_express.rs:177-186 -/
structure LaneEqualizationControl where
  downstream_port_transmitter_preset : TransmitterPreset
  downstream_port_receiver_preset_hint : ReceiverPresetHint
  upstream_port_transmitter_preset : TransmitterPreset
  upstream_port_receiver_preset_hint : ReceiverPresetHint
  deriving DecidableEq, Repr

/-- src/extended_capabilities/secondary_pci_express.rs:188-211 -/
def LaneEqualizationControl.ofU16 (w : U16) : LaneEqualizationControl := runBits w do
  let downstream_port_transmitter_preset ← bits 4
  let downstream_port_receiver_preset_hint ← bits 3
  skip 1
  let upstream_port_transmitter_preset ← bits 4
  let upstream_port_receiver_preset_hint ← bits 3
  skip 1
  return {
    downstream_port_transmitter_preset := TransmitterPreset.ofU8 downstream_port_transmitter_preset,
    downstream_port_receiver_preset_hint := ReceiverPresetHint.ofU8 downstream_port_receiver_preset_hint,
    upstream_port_transmitter_preset := TransmitterPreset.ofU8 upstream_port_transmitter_preset,
    upstream_port_receiver_preset_hint := ReceiverPresetHint.ofU8 upstream_port_receiver_preset_hint }

/-- src/extended_capabilities/secondary_pci_express.rs:158-164 -/
def EqualizationControlLanes.new (bytes : Bytes) : EqualizationControlLanes := { chunks := bytes }

/-- src/extended_capabilities/secondary_pci_express.rs:165-172 -/
def EqualizationControlLanes.next (s : EqualizationControlLanes) :
    Option (LaneEqualizationControl × EqualizationControlLanes) := do
  let (bytes, chunks) ← chunk 2 s.chunks
  match bytes with
  | [a, b] => some (LaneEqualizationControl.ofU16 (b ++ a), { chunks := chunks })
  | _ => none

/-- src/extended_capabilities/secondary_pci_express.rs:76-83.  Slicing out of range panics. -/
def SecondaryPciExpress.equalization_control_lanes {ε : Type} (s : SecondaryPciExpress)
    (link_width : LinkWidth) : Res ε EqualizationControlLanes :=
  let «end» := link_width.toU8.toNat * 2
  match getTo s.ecl_data «end» with
  | some bytes => .ok (EqualizationControlLanes.new bytes)
  | none => .panic

/-- src/extended_capabilities/secondary_pci_express.rs:85-104 -/
def SecondaryPciExpress.ofBytes (slice : Bytes) :
    Res ExtendedCapabilityDataError SecondaryPciExpress := do
  let ((link_control_3, lane_error_status), tail) ← BP.seq (do
    let link_control_3 ← le32
    let lane_error_status ← le32
    return (link_control_3, lane_error_status))
    { name := "Secondary PCI Express", size := 8 } slice
  return {
    ecl_data := tail, link_control_3 := LinkControl3.ofU32 link_control_3,
    lane_error_status := ⟨lane_error_status⟩ }

end Pcics.SecondaryPciExpress
