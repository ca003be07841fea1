import Verif.Model.Common
/- Model of src/extended_capabilities/frs_queuing.rs -/

namespace Pcics.FrsQueuing

/-- src/extended_capabilities/frs_queuing.rs:104-111 -/
structure FrsQueuingCapability where
  frs_queue_max_depth : U16
  frs_interrupt_message_number : U8
  deriving DecidableEq, Repr

/-- src/extended_capabilities/frs_queuing.rs:130-137 -/
structure FrsQueuingStatus where
  frs_message_received : Bool
  frs_message_overflow : Bool
  deriving DecidableEq, Repr

/-- src/extended_capabilities/frs_queuing.rs:155-160 -/
structure FrsQueuingControl where
  frs_interrupt_enable : Bool
  deriving DecidableEq, Repr

/-- src/extended_capabilities/frs_queuing.rs:177-188 -/
structure FrsMessageQueue where
  frs_message_queue_function_id : U16
  frs_message_queue_reason : U8
  frs_message_queue_depth : U16
  deriving DecidableEq, Repr

/-- src/extended_capabilities/frs_queuing.rs:59-64 -/
structure FrsQueuing where
  frs_queuing_capability : FrsQueuingCapability
  frs_queuing_status : FrsQueuingStatus
  frs_queuing_control : FrsQueuingControl
  frs_message_queue : FrsMessageQueue
  deriving DecidableEq, Repr

/-- src/extended_capabilities/frs_queuing.rs:117-126 -/
def FrsQueuingCapability.ofU32 (w : U32) : FrsQueuingCapability := runBits w do
  let frs_queue_max_depth ← bits 12
  skip 4
  let frs_interrupt_message_number ← bits 5
  skip 11
  return {
    frs_queue_max_depth := frs_queue_max_depth,
    frs_interrupt_message_number := frs_interrupt_message_number }

/-- src/extended_capabilities/frs_queuing.rs:143-151 -/
def FrsQueuingStatus.ofU16 (w : U16) : FrsQueuingStatus := runBits w do
  let frs_message_received ← bit
  let frs_message_overflow ← bit
  skip 14
  return {
    frs_message_received := frs_message_received, frs_message_overflow := frs_message_overflow }

/-- src/extended_capabilities/frs_queuing.rs:166-173 -/
def FrsQueuingControl.ofU16 (w : U16) : FrsQueuingControl := runBits w do
  let frs_interrupt_enable ← bit
  skip 15
  return { frs_interrupt_enable := frs_interrupt_enable }

/-- src/extended_capabilities/frs_queuing.rs:194-204 -/
def FrsMessageQueue.ofU32 (w : U32) : FrsMessageQueue := runBits w do
  let frs_message_queue_function_id ← bits 16
  let frs_message_queue_reason ← bits 4
  let frs_message_queue_depth ← bits 12
  return {
    frs_message_queue_function_id := frs_message_queue_function_id,
    frs_message_queue_reason := frs_message_queue_reason,
    frs_message_queue_depth := frs_message_queue_depth }

/-- src/extended_capabilities/frs_queuing.rs:75-100 -/
def FrsQueuing.ofBytes (slice : Bytes) : Res ExtendedCapabilityDataError FrsQueuing := do
  let slice := (getFrom slice 4).getD []
  let (frs_queuing_capability, frs_queuing_status, frs_queuing_control, frs_message_queue) ← BP.head (do
    let frs_queuing_capability ← le32
    let frs_queuing_status ← le16
    let frs_queuing_control ← le16
    let frs_message_queue ← le32
    return (frs_queuing_capability, frs_queuing_status, frs_queuing_control, frs_message_queue))
    { name := "FRS Queuing", size := 16 } slice
  return {
    frs_queuing_capability := FrsQueuingCapability.ofU32 frs_queuing_capability,
    frs_queuing_status := FrsQueuingStatus.ofU16 frs_queuing_status,
    frs_queuing_control := FrsQueuingControl.ofU16 frs_queuing_control,
    frs_message_queue := FrsMessageQueue.ofU32 frs_message_queue }

end Pcics.FrsQueuing
