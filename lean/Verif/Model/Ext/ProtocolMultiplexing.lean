import Verif.Model.Common
/- Model of src/extended_capabilities/protocol_multiplexing.rs -/

namespace Pcics.ProtocolMultiplexing

/-- src/extended_capabilities/protocol_multiplexing.rs:300-300.  `Chunks` is the bytes not yet yielded. -/
structure PmuxProtocolArray where
  val : Bytes
  deriving DecidableEq, Repr

/-- src/extended_capabilities/protocol_multiplexing.rs:94-101 -/
inductive ProtocolMultiplexingError where
  | Mandatory
  | PmuxProtocolArray (expected : Nat) (found : Nat)
  deriving DecidableEq, Repr

/-- src/extended_capabilities/protocol_multiplexing.rs:166-175 -/
structure PmuxSupportedLinkSpeeds where
  speed_2_5_gtps : Bool
  speed_5_0_gtps : Bool
  speed_8_0_gtps : Bool
  speed_16_0_gtps : Bool
  deriving DecidableEq, Repr

/-- src/extended_capabilities/protocol_multiplexing.rs:147-151 -/
structure PmuxCapability where
  pmux_protocol_array_size : U8
  pmux_supported_link_speeds : PmuxSupportedLinkSpeeds
  deriving DecidableEq, Repr

/-- src/extended_capabilities/protocol_multiplexing.rs:192-201 -/
structure PmuxControl where
  pmux_channel_0_assignment : U8
  pmux_channel_1_assignment : U8
  pmux_channel_2_assignment : U8
  pmux_channel_3_assignment : U8
  deriving DecidableEq, Repr

/-- src/extended_capabilities/protocol_multiplexing.rs:226-259 -/
structure PmuxStatus where
  pmux_channel_0_disabled_link_speed : Bool
  pmux_channel_0_disabled_link_width : Bool
  pmux_channel_0_disabled_link_protocol_specific : Bool
  pmux_channel_1_disabled_link_speed : Bool
  pmux_channel_1_disabled_link_width : Bool
  pmux_channel_1_disabled_link_protocol_specific : Bool
  pmux_channel_2_disabled_link_speed : Bool
  pmux_channel_2_disabled_link_width : Bool
  pmux_channel_2_disabled_link_protocol_specific : Bool
  pmux_channel_3_disabled_link_speed : Bool
  pmux_channel_3_disabled_link_width : Bool
  pmux_channel_3_disabled_link_protocol_specific : Bool
  deriving DecidableEq, Repr

/-- src/extended_capabilities/protocol_multiplexing.rs:105-110 -/
structure ProtocolMultiplexing where
  pmux_capability : PmuxCapability
  pmux_control : PmuxControl
  pmux_status : PmuxStatus
  pmux_protocol_array : PmuxProtocolArray
  deriving DecidableEq, Repr

/-- src/extended_capabilities/protocol_multiplexing.rs:177-188 -/
def PmuxSupportedLinkSpeeds.ofU8 (w : U8) : PmuxSupportedLinkSpeeds := runBits w do
  let speed_2_5_gtps ← bit
  let speed_5_0_gtps ← bit
  let speed_8_0_gtps ← bit
  let speed_16_0_gtps ← bit
  skip 4
  return {
    speed_2_5_gtps := speed_2_5_gtps, speed_5_0_gtps := speed_5_0_gtps,
    speed_8_0_gtps := speed_8_0_gtps, speed_16_0_gtps := speed_16_0_gtps }

/-- src/extended_capabilities/protocol_multiplexing.rs:153-162 -/
def PmuxCapability.ofU32 (w : U32) : PmuxCapability := runBits w do
  let pmux_protocol_array_size ← bits 6
  skip 2
  let pmux_supported_link_speeds ← bits 8
  skip 16
  return {
    pmux_protocol_array_size := pmux_protocol_array_size,
    pmux_supported_link_speeds := PmuxSupportedLinkSpeeds.ofU8 pmux_supported_link_speeds }

/-- src/extended_capabilities/protocol_multiplexing.rs:203-222 -/
def PmuxControl.ofU32 (w : U32) : PmuxControl := runBits w do
  let pmux_channel_0_assignment ← bits 6
  skip 2
  let pmux_channel_1_assignment ← bits 6
  skip 2
  let pmux_channel_2_assignment ← bits 6
  skip 2
  let pmux_channel_3_assignment ← bits 6
  skip 2
  return {
    pmux_channel_0_assignment := pmux_channel_0_assignment,
    pmux_channel_1_assignment := pmux_channel_1_assignment,
    pmux_channel_2_assignment := pmux_channel_2_assignment,
    pmux_channel_3_assignment := pmux_channel_3_assignment }

/-- src/extended_capabilities/protocol_multiplexing.rs:261-296 -/
def PmuxStatus.ofU32 (w : U32) : PmuxStatus := runBits w do
  let pmux_channel_0_disabled_link_speed ← bit
  let pmux_channel_0_disabled_link_width ← bit
  let pmux_channel_0_disabled_link_protocol_specific ← bit
  skip 5
  let pmux_channel_1_disabled_link_speed ← bit
  let pmux_channel_1_disabled_link_width ← bit
  let pmux_channel_1_disabled_link_protocol_specific ← bit
  skip 5
  let pmux_channel_2_disabled_link_speed ← bit
  let pmux_channel_2_disabled_link_width ← bit
  let pmux_channel_2_disabled_link_protocol_specific ← bit
  skip 5
  let pmux_channel_3_disabled_link_speed ← bit
  let pmux_channel_3_disabled_link_width ← bit
  let pmux_channel_3_disabled_link_protocol_specific ← bit
  skip 5
  return {
    pmux_channel_0_disabled_link_speed := pmux_channel_0_disabled_link_speed,
    pmux_channel_0_disabled_link_width := pmux_channel_0_disabled_link_width,
    pmux_channel_0_disabled_link_protocol_specific := pmux_channel_0_disabled_link_protocol_specific,
    pmux_channel_1_disabled_link_speed := pmux_channel_1_disabled_link_speed,
    pmux_channel_1_disabled_link_width := pmux_channel_1_disabled_link_width,
    pmux_channel_1_disabled_link_protocol_specific := pmux_channel_1_disabled_link_protocol_specific,
    pmux_channel_2_disabled_link_speed := pmux_channel_2_disabled_link_speed,
    pmux_channel_2_disabled_link_width := pmux_channel_2_disabled_link_width,
    pmux_channel_2_disabled_link_protocol_specific := pmux_channel_2_disabled_link_protocol_specific,
    pmux_channel_3_disabled_link_speed := pmux_channel_3_disabled_link_speed,
    pmux_channel_3_disabled_link_width := pmux_channel_3_disabled_link_width,
    pmux_channel_3_disabled_link_protocol_specific := pmux_channel_3_disabled_link_protocol_specific }

/-- src/extended_capabilities/protocol_multiplexing.rs:334-340 -/
structure PmuxProtocolArrayEntry where
  protocol_id : U16
  authority_id : U16
  deriving DecidableEq, Repr

/-- src/extended_capabilities/protocol_multiplexing.rs:347-353 -/
def PmuxProtocolArrayEntry.toBytes (entry : PmuxProtocolArrayEntry) : Bytes :=
  [entry.protocol_id.setWidth 8, (entry.protocol_id >>> 8).setWidth 8,
   entry.authority_id.setWidth 8, (entry.authority_id >>> 8).setWidth 8]

/-- src/extended_capabilities/protocol_multiplexing.rs:302-306 -/
def PmuxProtocolArray.new (slice : Bytes) : PmuxProtocolArray := ⟨slice⟩

/-- src/extended_capabilities/protocol_multiplexing.rs:316-331 -/
def PmuxProtocolArray.next (s : PmuxProtocolArray) :
    Option (PmuxProtocolArrayEntry × PmuxProtocolArray) := do
  let (slice, chunks) ← chunk 4 s.val
  let ((protocol_id, authority_id), _) ← (do
    let protocol_id ← le16
    let authority_id ← le16
    return (protocol_id, authority_id) : BP (U16 × U16)) slice
  some ({ protocol_id := protocol_id, authority_id := authority_id }, ⟨chunks⟩)

/-- src/extended_capabilities/protocol_multiplexing.rs:112-143 -/
def ProtocolMultiplexing.ofBytes (slice : Bytes) :
    Res ProtocolMultiplexingError ProtocolMultiplexing := do
  let slice := (getFrom slice 4).getD []
  let ((pmux_capability, pmux_control, pmux_status), tail) ← BP.seq (do
    let pmux_capability ← le32
    let pmux_control ← le32
    let pmux_status ← le32
    return (pmux_capability, pmux_control, pmux_status)) .Mandatory slice
  let pmux_capability := PmuxCapability.ofU32 pmux_capability
  let len := pmux_capability.pmux_protocol_array_size.toNat * 4
  match getTo tail len with
  | none => .err (.PmuxProtocolArray len tail.length)
  | some slice => .ok {
      pmux_capability := pmux_capability, pmux_control := PmuxControl.ofU32 pmux_control,
      pmux_status := PmuxStatus.ofU32 pmux_status,
      pmux_protocol_array := PmuxProtocolArray.new slice }

end Pcics.ProtocolMultiplexing
