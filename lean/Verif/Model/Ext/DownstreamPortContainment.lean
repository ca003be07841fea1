import Verif.Model.Ext.AdvancedErrorReporting
/- Model of src/extended_capabilities/downstream_port_containment.rs -/

namespace Pcics.DownstreamPortContainment
open AdvancedErrorReporting (HeaderLog TlpPrefixLog)

/-- src/extended_capabilities/downstream_port_containment.rs:477-496 -/
structure RpPio where
  cfg_ur_cpl : Bool
  cfg_ca_cpl : Bool
  cfg_cto : Bool
  io_ur_cpl : Bool
  io_ca_cpl : Bool
  io_cto : Bool
  mem_ur_cpl : Bool
  mem_ca_cpl : Bool
  mem_cto : Bool
  deriving DecidableEq, Repr

/-- src/extended_capabilities/downstream_port_containment.rs:262-284 -/
structure RpExtensions where
  rp_pio_status : RpPio
  rp_pio_mask : RpPio
  rp_pio_severity : RpPio
  rp_pio_syserr : RpPio
  rp_pio_exception : RpPio
  rp_pio_header_log : HeaderLog
  rp_pio_impspec_log : Option U32
  rp_pio_tlp_prefix_log : Option TlpPrefixLog
  deriving DecidableEq, Repr

/-- src/extended_capabilities/downstream_port_containment.rs:154-163 -/
inductive DownstreamPortContainmentError where
  | Mandatory
  | RpExtensions
  | RpPioImpspecLog
  | RpPioTlpPrefixLog (number : Nat)
  deriving DecidableEq, Repr

/-- src/extended_capabilities/downstream_port_containment.rs:288-301 -/
structure DpcCapability where
  dpc_interrupt_message_number : U8
  rp_extensions_for_dpc : Bool
  poisoned_tlp_egress_blocking_supported : Bool
  dpc_software_triggering_supported : Bool
  rp_pio_log_size : U8
  dl_active_err_cor_signaling_supported : Bool
  deriving DecidableEq, Repr

/-- src/extended_capabilities/downstream_port_containment.rs:370-379 -/
inductive DpcTrigger where
  | Disabled
  | ErrFatalMessage
  | ErrNonFatalMessage
  | Reserved
  deriving DecidableEq, Repr

/-- src/extended_capabilities/downstream_port_containment.rs:327-342 -/
structure DpcControl where
  dpc_trigger_enable : DpcTrigger
  dpc_completion_control : Bool
  dpc_interrupt_enable : Bool
  dpc_err_cor_enable : Bool
  poisoned_tlp_egress_blocking_enable : Bool
  dpc_software_trigger : Bool
  dl_active_err_cor_enable : Bool
  deriving DecidableEq, Repr

/-- src/extended_capabilities/downstream_port_containment.rs:433-445 -/
inductive DpcTriggerReason where
  | UnmaskedUncorrectableError
  | ReceivingAnErrNonFatal
  | ReceivingAnErrFatal
  | RpPioError
  | DpcSoftwareTriggerBit
  | Reserved (v : U8)
  deriving DecidableEq, Repr

/-- src/extended_capabilities/downstream_port_containment.rs:393-404 -/
structure DpcStatus where
  dpc_trigger_status : Bool
  dpc_trigger_reason : DpcTriggerReason
  dpc_interrupt_status : Bool
  dpc_rp_busy : Bool
  rp_pio_first_error_pointer : U8
  deriving DecidableEq, Repr

/-- src/extended_capabilities/downstream_port_containment.rs:166-180 -/
structure DownstreamPortContainment where
  dpc_capability : DpcCapability
  dpc_control : DpcControl
  dpc_status : DpcStatus
  dpc_error_source_id : U16
  rp_extensions : Option RpExtensions
  deriving DecidableEq, Repr

/-- src/extended_capabilities/downstream_port_containment.rs:303-323 -/
def DpcCapability.ofU16 (w : U16) : DpcCapability := runBits w do
  let dpc_interrupt_message_number ← bits 5
  let rp_extensions_for_dpc ← bit
  let poisoned_tlp_egress_blocking_supported ← bit
  let dpc_software_triggering_supported ← bit
  let rp_pio_log_size ← bits 4
  let dl_active_err_cor_signaling_supported ← bit
  skip 3
  return {
    dpc_interrupt_message_number := dpc_interrupt_message_number,
    rp_extensions_for_dpc := rp_extensions_for_dpc,
    poisoned_tlp_egress_blocking_supported := poisoned_tlp_egress_blocking_supported,
    dpc_software_triggering_supported := dpc_software_triggering_supported,
    rp_pio_log_size := rp_pio_log_size,
    dl_active_err_cor_signaling_supported := dl_active_err_cor_signaling_supported }

/-- src/extended_capabilities/downstream_port_containment.rs:380-389 -/
def DpcTrigger.ofU8 (b : U8) : DpcTrigger :=
  match b.toNat with
  | 0b00 => .Disabled
  | 0b01 => .ErrFatalMessage
  | 0b10 => .ErrNonFatalMessage
  | _ => .Reserved

/-- src/extended_capabilities/downstream_port_containment.rs:344-366 -/
def DpcControl.ofU16 (w : U16) : DpcControl := runBits w do
  let dpc_trigger_enable ← bits 2
  let dpc_completion_control ← bit
  let dpc_interrupt_enable ← bit
  let dpc_err_cor_enable ← bit
  let poisoned_tlp_egress_blocking_enable ← bit
  let dpc_software_trigger ← bit
  let dl_active_err_cor_enable ← bit
  skip 8
  return {
    dpc_trigger_enable := DpcTrigger.ofU8 dpc_trigger_enable,
    dpc_completion_control := dpc_completion_control,
    dpc_interrupt_enable := dpc_interrupt_enable, dpc_err_cor_enable := dpc_err_cor_enable,
    poisoned_tlp_egress_blocking_enable := poisoned_tlp_egress_blocking_enable,
    dpc_software_trigger := dpc_software_trigger,
    dl_active_err_cor_enable := dl_active_err_cor_enable }

/-- src/extended_capabilities/downstream_port_containment.rs:447-457 -/
def DpcTriggerReason.new (reason reason_extension : U8) : DpcTriggerReason :=
  if reason = 0b00 then .UnmaskedUncorrectableError
  else if reason = 0b01 then .ReceivingAnErrNonFatal
  else if reason = 0b10 then .ReceivingAnErrFatal
  else if reason_extension = 0b00 then .RpPioError
  else if reason_extension = 0b01 then .DpcSoftwareTriggerBit
  else .Reserved reason_extension

/-- src/extended_capabilities/downstream_port_containment.rs:458-465 -/
def DpcTriggerReason.value : DpcTriggerReason → U8
  | .UnmaskedUncorrectableError => 0b00
  | .ReceivingAnErrNonFatal => 0b01
  | .ReceivingAnErrFatal => 0b10
  | _ => 0b11

/-- src/extended_capabilities/downstream_port_containment.rs:466-473 -/
def DpcTriggerReason.extension_value : DpcTriggerReason → U8
  | .RpPioError => 0b00
  | .DpcSoftwareTriggerBit => 0b01
  | .Reserved v => v
  | _ => 0b00

/-- src/extended_capabilities/downstream_port_containment.rs:406-429 -/
def DpcStatus.ofU16 (w : U16) : DpcStatus := runBits w do
  let dpc_trigger_status ← bit
  let dpc_trigger_reason ← bits 2
  let dpc_interrupt_status ← bit
  let dpc_rp_busy ← bit
  let dpc_trigger_reason_extension ← bits 2
  skip 1
  let rp_pio_first_error_pointer ← bits 5
  skip 3
  return {
    dpc_trigger_status := dpc_trigger_status,
    dpc_trigger_reason := DpcTriggerReason.new dpc_trigger_reason dpc_trigger_reason_extension,
    dpc_interrupt_status := dpc_interrupt_status, dpc_rp_busy := dpc_rp_busy,
    rp_pio_first_error_pointer := rp_pio_first_error_pointer }

/-- src/extended_capabilities/downstream_port_containment.rs:498-526 -/
def RpPio.ofU32 (w : U32) : RpPio := runBits w do
  let cfg_ur_cpl ← bit
  let cfg_ca_cpl ← bit
  let cfg_cto ← bit
  skip 5
  let io_ur_cpl ← bit
  let io_ca_cpl ← bit
  let io_cto ← bit
  skip 5
  let mem_ur_cpl ← bit
  let mem_ca_cpl ← bit
  let mem_cto ← bit
  skip 13
  return {
    cfg_ur_cpl := cfg_ur_cpl, cfg_ca_cpl := cfg_ca_cpl, cfg_cto := cfg_cto,
    io_ur_cpl := io_ur_cpl, io_ca_cpl := io_ca_cpl, io_cto := io_cto, mem_ur_cpl := mem_ur_cpl,
    mem_ca_cpl := mem_ca_cpl, mem_cto := mem_cto }

/-- src/extended_capabilities/downstream_port_containment.rs:225-231, the loop over the log entries from `i`
on, `n` still to be read -/
def readPrefixLog (i : Nat) : Nat → Bytes → Res DownstreamPortContainmentError (List U32)
  | 0, _ => .ok []
  | n + 1, slice => do
    let (head, tail) ← BP.seq le32 (.RpPioTlpPrefixLog i) slice
    let rest ← readPrefixLog (i + 1) n tail
    return head :: rest

/-- src/extended_capabilities/downstream_port_containment.rs:181-257 -/
def DownstreamPortContainment.ofBytes (slice : Bytes) :
    Res DownstreamPortContainmentError DownstreamPortContainment := do
  let ((dpc_capability, dpc_control, dpc_status, dpc_error_source_id), tail) ← BP.seq (do
    let dpc_capability ← le16
    let dpc_control ← le16
    let dpc_status ← le16
    let dpc_error_source_id ← le16
    return (dpc_capability, dpc_control, dpc_status, dpc_error_source_id)) .Mandatory slice
  let dpc_capability := DpcCapability.ofU16 dpc_capability
  let rp_extensions ←
    if dpc_capability.rp_extensions_for_dpc then do
      let ((rp_pio_status, rp_pio_mask, rp_pio_severity, rp_pio_syserr, rp_pio_exception,
          rp_pio_header_log), tail) ← BP.seq (do
        let rp_pio_status ← le32
        let rp_pio_mask ← le32
        let rp_pio_severity ← le32
        let rp_pio_syserr ← le32
        let rp_pio_exception ← le32
        let rp_pio_header_log ← le32s 4
        return (rp_pio_status, rp_pio_mask, rp_pio_severity, rp_pio_syserr, rp_pio_exception,
          rp_pio_header_log)) .RpExtensions tail
      let (rp_pio_impspec_log, slice) ←
        if 5 ≤ dpc_capability.rp_pio_log_size.toNat then do
          let (rp_pio_impspec_log, tail) ← BP.seq le32 .RpPioImpspecLog tail
          pure (some rp_pio_impspec_log, tail)
        else .ok (none, tail)
      let rp_pio_tlp_prefix_log ←
        if 5 < dpc_capability.rp_pio_log_size.toNat then do
          let n := min (dpc_capability.rp_pio_log_size.toNat - 5) 4
          let entries ← readPrefixLog 0 n slice
          pure (some ({ val := entries ++ List.replicate (4 - n) 0 } : TlpPrefixLog))
        else .ok none
      pure (some ({
        rp_pio_status := RpPio.ofU32 rp_pio_status
        rp_pio_mask := RpPio.ofU32 rp_pio_mask
        rp_pio_severity := RpPio.ofU32 rp_pio_severity
        rp_pio_syserr := RpPio.ofU32 rp_pio_syserr
        rp_pio_exception := RpPio.ofU32 rp_pio_exception
        rp_pio_header_log := { val := rp_pio_header_log }
        rp_pio_impspec_log := rp_pio_impspec_log
        rp_pio_tlp_prefix_log := rp_pio_tlp_prefix_log } : RpExtensions))
    else .ok none
  return {
    dpc_capability := dpc_capability
    dpc_control := DpcControl.ofU16 dpc_control
    dpc_status := DpcStatus.ofU16 dpc_status
    dpc_error_source_id := dpc_error_source_id
    rp_extensions := rp_extensions }

end Pcics.DownstreamPortContainment
