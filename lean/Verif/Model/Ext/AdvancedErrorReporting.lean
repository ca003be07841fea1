import Verif.Model.Common
/- Model of src/extended_capabilities/advanced_error_reporting.rs -/

namespace Pcics.AdvancedErrorReporting

/-- src/extended_capabilities/advanced_error_reporting.rs:576-576 -/
structure TlpPrefixLog where
  val : List U32
  deriving DecidableEq, Repr

/-- src/extended_capabilities/advanced_error_reporting.rs:175-180 -/
inductive AdvancedErrorReportingError where
  | Common
  | TlpPrefixLog
  deriving DecidableEq, Repr

/-- src/extended_capabilities/advanced_error_reporting.rs:295-332 -/
structure UncorrectableError where
  link_training_error : Bool
  data_link_protocol_error_status : Bool
  surprise_down_error_status : Bool
  poisoned_tlp_received_status : Bool
  flow_control_protocol_error_status : Bool
  completion_timeout_status : Bool
  completer_abort_status : Bool
  unexpected_completion_status : Bool
  receiver_overflow_status : Bool
  malformed_tlp_status : Bool
  ecrc_error_status : Bool
  unsupported_request_error_status : Bool
  acs_violation_status : Bool
  uncorrectable_internal_error_status : Bool
  mc_blocked_tlp_status : Bool
  atomicop_egress_blocked_status : Bool
  tlp_prefix_blocked_error_status : Bool
  poisoned_tlp_egress_blocked_status : Bool
  deriving DecidableEq, Repr

/-- src/extended_capabilities/advanced_error_reporting.rs:383-400 -/
structure CorrectableError where
  receiver_error_status : Bool
  bad_tlp_status : Bool
  bad_dllp_status : Bool
  replay_num_rollover_status : Bool
  replay_timer_timeout_status : Bool
  advisory_non_fatal_error_status : Bool
  corrected_internal_error_status : Bool
  header_log_overflow_status : Bool
  deriving DecidableEq, Repr

/-- src/extended_capabilities/advanced_error_reporting.rs:431-450 -/
structure AdvancedErrorCapabilitiesAndControl where
  first_error_pointer : U8
  ecrc_generation_capable : Bool
  ecrc_generation_enable : Bool
  ecrc_check_capable : Bool
  ecrc_check_enable : Bool
  multiple_header_recording_capable : Bool
  multiple_header_recording_enable : Bool
  tlp_prefix_log_present : Bool
  completion_timeout_prefix_or_header_log_capable : Bool
  deriving DecidableEq, Repr

/-- src/extended_capabilities/advanced_error_reporting.rs:482-482 -/
structure HeaderLog where
  val : List U32
  deriving DecidableEq, Repr

/-- src/extended_capabilities/advanced_error_reporting.rs:488-495 -/
structure RootErrorCommand where
  correctable_error_reporting_enable : Bool
  non_fatal_error_reporting_enable : Bool
  fatal_error_reporting_enable : Bool
  deriving DecidableEq, Repr

/-- src/extended_capabilities/advanced_error_reporting.rs:517-534 -/
structure RootErrorStatus where
  err_cor_received : Bool
  multiple_err_cor_received : Bool
  err_fatal_or_nonfatal_received : Bool
  multiple_err_fatal_or_nonfatal_received : Bool
  first_uncorrectable_fatal : Bool
  non_fatal_error_messages_received : Bool
  fatal_error_messages_received : Bool
  advanced_error_interrupt_message_number : U8
  deriving DecidableEq, Repr

/-- src/extended_capabilities/advanced_error_reporting.rs:566-571 -/
structure ErrorSourceIdentification where
  err_cor_source_identification : U16
  err_fatal_or_nonfatal_source_identification : U16
  deriving DecidableEq, Repr

/-- src/extended_capabilities/advanced_error_reporting.rs:183-205 -/
structure AdvancedErrorReporting where
  uncorrectable_error_status : UncorrectableError
  uncorrectable_error_mask : UncorrectableError
  uncorrectable_error_severity : UncorrectableError
  correctable_error_status : CorrectableError
  correctable_error_mask : CorrectableError
  advanced_error_capabilities_and_control : AdvancedErrorCapabilitiesAndControl
  header_log : HeaderLog
  root_error_command : Option RootErrorCommand
  root_error_status : Option RootErrorStatus
  error_source_identification : Option ErrorSourceIdentification
  tlp_prefix_log : Option TlpPrefixLog
  deriving DecidableEq, Repr

/-- src/extended_capabilities/advanced_error_reporting.rs:333-379 -/
def UncorrectableError.ofU32 (w : U32) : UncorrectableError := runBits w do
  let link_training_error ← bit
  skip 3
  let data_link_protocol_error_status ← bit
  let surprise_down_error_status ← bit
  skip 6
  let poisoned_tlp_received_status ← bit
  let flow_control_protocol_error_status ← bit
  let completion_timeout_status ← bit
  let completer_abort_status ← bit
  let unexpected_completion_status ← bit
  let receiver_overflow_status ← bit
  let malformed_tlp_status ← bit
  let ecrc_error_status ← bit
  let unsupported_request_error_status ← bit
  let acs_violation_status ← bit
  let uncorrectable_internal_error_status ← bit
  let mc_blocked_tlp_status ← bit
  let atomicop_egress_blocked_status ← bit
  let tlp_prefix_blocked_error_status ← bit
  let poisoned_tlp_egress_blocked_status ← bit
  skip 5
  return {
    link_training_error := link_training_error,
    data_link_protocol_error_status := data_link_protocol_error_status,
    surprise_down_error_status := surprise_down_error_status,
    poisoned_tlp_received_status := poisoned_tlp_received_status,
    flow_control_protocol_error_status := flow_control_protocol_error_status,
    completion_timeout_status := completion_timeout_status,
    completer_abort_status := completer_abort_status,
    unexpected_completion_status := unexpected_completion_status,
    receiver_overflow_status := receiver_overflow_status,
    malformed_tlp_status := malformed_tlp_status, ecrc_error_status := ecrc_error_status,
    unsupported_request_error_status := unsupported_request_error_status,
    acs_violation_status := acs_violation_status,
    uncorrectable_internal_error_status := uncorrectable_internal_error_status,
    mc_blocked_tlp_status := mc_blocked_tlp_status,
    atomicop_egress_blocked_status := atomicop_egress_blocked_status,
    tlp_prefix_blocked_error_status := tlp_prefix_blocked_error_status,
    poisoned_tlp_egress_blocked_status := poisoned_tlp_egress_blocked_status }

/-- src/extended_capabilities/advanced_error_reporting.rs:401-427 -/
def CorrectableError.ofU32 (w : U32) : CorrectableError := runBits w do
  let receiver_error_status ← bit
  skip 5
  let bad_tlp_status ← bit
  let bad_dllp_status ← bit
  let replay_num_rollover_status ← bit
  skip 3
  let replay_timer_timeout_status ← bit
  let advisory_non_fatal_error_status ← bit
  let corrected_internal_error_status ← bit
  let header_log_overflow_status ← bit
  skip 16
  return {
    receiver_error_status := receiver_error_status, bad_tlp_status := bad_tlp_status,
    bad_dllp_status := bad_dllp_status, replay_num_rollover_status := replay_num_rollover_status,
    replay_timer_timeout_status := replay_timer_timeout_status,
    advisory_non_fatal_error_status := advisory_non_fatal_error_status,
    corrected_internal_error_status := corrected_internal_error_status,
    header_log_overflow_status := header_log_overflow_status }

/-- src/extended_capabilities/advanced_error_reporting.rs:452-478 -/
def AdvancedErrorCapabilitiesAndControl.ofU32 (w : U32) : AdvancedErrorCapabilitiesAndControl := runBits w do
  let first_error_pointer ← bits 5
  let ecrc_generation_capable ← bit
  let ecrc_generation_enable ← bit
  let ecrc_check_capable ← bit
  let ecrc_check_enable ← bit
  let multiple_header_recording_capable ← bit
  let multiple_header_recording_enable ← bit
  let tlp_prefix_log_present ← bit
  let completion_timeout_prefix_or_header_log_capable ← bit
  skip 10
  return {
    first_error_pointer := first_error_pointer,
    ecrc_generation_capable := ecrc_generation_capable,
    ecrc_generation_enable := ecrc_generation_enable, ecrc_check_capable := ecrc_check_capable,
    ecrc_check_enable := ecrc_check_enable,
    multiple_header_recording_capable := multiple_header_recording_capable,
    multiple_header_recording_enable := multiple_header_recording_enable,
    tlp_prefix_log_present := tlp_prefix_log_present,
    completion_timeout_prefix_or_header_log_capable := completion_timeout_prefix_or_header_log_capable }

/-- src/extended_capabilities/advanced_error_reporting.rs:497-511 -/
def RootErrorCommand.ofU32 (w : U32) : RootErrorCommand := runBits w do
  let correctable_error_reporting_enable ← bit
  let non_fatal_error_reporting_enable ← bit
  let fatal_error_reporting_enable ← bit
  skip 29
  return {
    correctable_error_reporting_enable := correctable_error_reporting_enable,
    non_fatal_error_reporting_enable := non_fatal_error_reporting_enable,
    fatal_error_reporting_enable := fatal_error_reporting_enable }

/-- src/extended_capabilities/advanced_error_reporting.rs:536-560 -/
def RootErrorStatus.ofU32 (w : U32) : RootErrorStatus := runBits w do
  let err_cor_received ← bit
  let multiple_err_cor_received ← bit
  let err_fatal_or_nonfatal_received ← bit
  let multiple_err_fatal_or_nonfatal_received ← bit
  let first_uncorrectable_fatal ← bit
  let non_fatal_error_messages_received ← bit
  let fatal_error_messages_received ← bit
  skip 20
  let advanced_error_interrupt_message_number ← bits 5
  return {
    err_cor_received := err_cor_received, multiple_err_cor_received := multiple_err_cor_received,
    err_fatal_or_nonfatal_received := err_fatal_or_nonfatal_received,
    multiple_err_fatal_or_nonfatal_received := multiple_err_fatal_or_nonfatal_received,
    first_uncorrectable_fatal := first_uncorrectable_fatal,
    non_fatal_error_messages_received := non_fatal_error_messages_received,
    fatal_error_messages_received := fatal_error_messages_received,
    advanced_error_interrupt_message_number := advanced_error_interrupt_message_number }

/-- src/extended_capabilities/advanced_error_reporting.rs:218-290
(the sizes src/extended_capabilities/advanced_error_reporting.rs:206-217: `RP_AND_RCEC_SIZE` is 52). -/
def AdvancedErrorReporting.ofBytes (slice : Bytes) :
    Res AdvancedErrorReportingError AdvancedErrorReporting := do
  let ((uncorrectable_error_status, uncorrectable_error_mask, uncorrectable_error_severity,
      correctable_error_status, correctable_error_mask, advanced_error_capabilities_and_control,
      header_log), slice) ← BP.seq (do
    let uncorrectable_error_status ← le32
    let uncorrectable_error_mask ← le32
    let uncorrectable_error_severity ← le32
    let correctable_error_status ← le32
    let correctable_error_mask ← le32
    let advanced_error_capabilities_and_control ← le32
    let header_log ← le32s 4
    return (uncorrectable_error_status, uncorrectable_error_mask, uncorrectable_error_severity,
      correctable_error_status, correctable_error_mask, advanced_error_capabilities_and_control,
      header_log)) .Common slice
  let (root_error_command, root_error_status, error_source_identification) :=
    match (do
      let root_error_command ← le32
      let root_error_status ← le32
      let err_cor_source_identification ← le16
      let err_fatal_or_nonfatal_source_identification ← le16
      return (RootErrorCommand.ofU32 root_error_command, RootErrorStatus.ofU32 root_error_status,
        ({ err_cor_source_identification := err_cor_source_identification
           err_fatal_or_nonfatal_source_identification :=
             err_fatal_or_nonfatal_source_identification } : ErrorSourceIdentification)) :
        BP (RootErrorCommand × RootErrorStatus × ErrorSourceIdentification)) slice with
    | some ((root_error_command, root_error_status, error_source_identification), _) =>
      (some root_error_command, some root_error_status, some error_source_identification)
    | none => (none, none, none)
  let advanced_error_capabilities_and_control :=
    AdvancedErrorCapabilitiesAndControl.ofU32 advanced_error_capabilities_and_control
  let tlp_prefix_log ←
    if advanced_error_capabilities_and_control.tlp_prefix_log_present then do
      let tlp_prefix_log ← BP.head (do
        let _ ← bytesN 52
        let tlp_prefix_log ← le32s 4
        return tlp_prefix_log) .TlpPrefixLog slice
      pure (some ({ val := tlp_prefix_log } : TlpPrefixLog))
    else .ok none
  return {
    uncorrectable_error_status := UncorrectableError.ofU32 uncorrectable_error_status
    uncorrectable_error_mask := UncorrectableError.ofU32 uncorrectable_error_mask
    uncorrectable_error_severity := UncorrectableError.ofU32 uncorrectable_error_severity
    correctable_error_status := CorrectableError.ofU32 correctable_error_status
    correctable_error_mask := CorrectableError.ofU32 correctable_error_mask
    advanced_error_capabilities_and_control := advanced_error_capabilities_and_control
    header_log := { val := header_log }
    root_error_command := root_error_command
    root_error_status := root_error_status
    error_source_identification := error_source_identification
    tlp_prefix_log := tlp_prefix_log }

end Pcics.AdvancedErrorReporting
