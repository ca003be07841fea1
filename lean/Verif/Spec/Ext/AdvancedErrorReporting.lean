import Verif.Model.Ext.AdvancedErrorReporting
import Verif.Spec
/- Specification of src/extended_capabilities/advanced_error_reporting.rs: positions and value tables. -/

namespace Pcics.AdvancedErrorReporting
open Spec

/-- Layout of `UncorrectableError`. -/
def UncorrectableError.spec (w : U32) : UncorrectableError :=
  {
    link_training_error := flag w 0, data_link_protocol_error_status := flag w 4,
    surprise_down_error_status := flag w 5, poisoned_tlp_received_status := flag w 12,
    flow_control_protocol_error_status := flag w 13, completion_timeout_status := flag w 14,
    completer_abort_status := flag w 15, unexpected_completion_status := flag w 16,
    receiver_overflow_status := flag w 17, malformed_tlp_status := flag w 18,
    ecrc_error_status := flag w 19, unsupported_request_error_status := flag w 20,
    acs_violation_status := flag w 21, uncorrectable_internal_error_status := flag w 22,
    mc_blocked_tlp_status := flag w 23, atomicop_egress_blocked_status := flag w 24,
    tlp_prefix_blocked_error_status := flag w 25,
    poisoned_tlp_egress_blocked_status := flag w 26 }

/-- Layout of `CorrectableError`. -/
def CorrectableError.spec (w : U32) : CorrectableError :=
  {
    receiver_error_status := flag w 0, bad_tlp_status := flag w 6, bad_dllp_status := flag w 7,
    replay_num_rollover_status := flag w 8, replay_timer_timeout_status := flag w 12,
    advisory_non_fatal_error_status := flag w 13, corrected_internal_error_status := flag w 14,
    header_log_overflow_status := flag w 15 }

/-- Layout of `AdvancedErrorCapabilitiesAndControl`. -/
def AdvancedErrorCapabilitiesAndControl.spec (w : U32) : AdvancedErrorCapabilitiesAndControl :=
  {
    first_error_pointer := fld w 0 5, ecrc_generation_capable := flag w 5,
    ecrc_generation_enable := flag w 6, ecrc_check_capable := flag w 7,
    ecrc_check_enable := flag w 8, multiple_header_recording_capable := flag w 9,
    multiple_header_recording_enable := flag w 10, tlp_prefix_log_present := flag w 11,
    completion_timeout_prefix_or_header_log_capable := flag w 12 }

/-- Layout of `RootErrorCommand`. -/
def RootErrorCommand.spec (w : U32) : RootErrorCommand :=
  {
    correctable_error_reporting_enable := flag w 0, non_fatal_error_reporting_enable := flag w 1,
    fatal_error_reporting_enable := flag w 2 }

/-- Layout of `RootErrorStatus`. -/
def RootErrorStatus.spec (w : U32) : RootErrorStatus :=
  {
    err_cor_received := flag w 0, multiple_err_cor_received := flag w 1,
    err_fatal_or_nonfatal_received := flag w 2,
    multiple_err_fatal_or_nonfatal_received := flag w 3, first_uncorrectable_fatal := flag w 4,
    non_fatal_error_messages_received := flag w 5, fatal_error_messages_received := flag w 6,
    advanced_error_interrupt_message_number := fld w 27 5 }

/-- Layout of the registers, with the given TLP prefix log; `d` starts after the extended capability
header, so offsets are those of the PCI Express specification less 4. The root registers
(0x2c .. 0x38) are taken as present when the data reaches that far. -/
def AdvancedErrorReporting.spec (d : Bytes) (log : Option TlpPrefixLog) :
    AdvancedErrorReporting where
  uncorrectable_error_status := .spec (rd32 d 0)
  uncorrectable_error_mask := .spec (rd32 d 4)
  uncorrectable_error_severity := .spec (rd32 d 8)
  correctable_error_status := .spec (rd32 d 12)
  correctable_error_mask := .spec (rd32 d 16)
  advanced_error_capabilities_and_control := .spec (rd32 d 20)
  header_log := { val := rd32s d 24 4 }
  root_error_command := if 52 ≤ d.length then some (.spec (rd32 d 40)) else none
  root_error_status := if 52 ≤ d.length then some (.spec (rd32 d 44)) else none
  error_source_identification := if 52 ≤ d.length then some {
    err_cor_source_identification := rd16 d 48
    err_fatal_or_nonfatal_source_identification := rd16 d 50 } else none
  tlp_prefix_log := log

/-- The architected decoding: the TLP prefix log, when present, is at 0x38 (0x34 in `d`). -/
def AdvancedErrorReporting.arch (d : Bytes) :
    Res AdvancedErrorReportingError AdvancedErrorReporting :=
  if d.length < 40 then .err .Common
  else if flag (rd32 d 20) 11 then
    if d.length < 68 then .err .TlpPrefixLog else .ok (.spec d (some ⟨rd32s d 52 4⟩))
  else .ok (.spec d none)

end Pcics.AdvancedErrorReporting
