import Verif.Model.Ext.DownstreamPortContainment
import Verif.Spec
/- Specification of src/extended_capabilities/downstream_port_containment.rs: positions and value tables. -/

namespace Pcics.DownstreamPortContainment
open Spec

/-- Values of `DpcTrigger`. -/
def DpcTrigger.spec (c : U8) : DpcTrigger :=
  pick c [(0, .Disabled), (1, .ErrFatalMessage), (2, .ErrNonFatalMessage)] .Reserved

/-- Layout of `DpcCapability`. -/
def DpcCapability.spec (w : U16) : DpcCapability :=
  {
    dpc_interrupt_message_number := fld w 0 5, rp_extensions_for_dpc := flag w 5,
    poisoned_tlp_egress_blocking_supported := flag w 6,
    dpc_software_triggering_supported := flag w 7, rp_pio_log_size := fld w 8 4,
    dl_active_err_cor_signaling_supported := flag w 12 }

/-- Layout of `DpcControl`. -/
def DpcControl.spec (w : U16) : DpcControl :=
  {
    dpc_trigger_enable := DpcTrigger.spec (fld w 0 2), dpc_completion_control := flag w 2,
    dpc_interrupt_enable := flag w 3, dpc_err_cor_enable := flag w 4,
    poisoned_tlp_egress_blocking_enable := flag w 5, dpc_software_trigger := flag w 6,
    dl_active_err_cor_enable := flag w 7 }

/-- Trigger reasons; code 3 is refined by the extension field. -/
def DpcTriggerReason.spec (reason ext : U8) : DpcTriggerReason :=
  pick reason [(0, .UnmaskedUncorrectableError), (1, .ReceivingAnErrNonFatal),
    (2, .ReceivingAnErrFatal)] (pick ext [(0, .RpPioError), (1, .DpcSoftwareTriggerBit)]
      (.Reserved ext))

/-- Layout of `DpcStatus`. -/
def DpcStatus.spec (w : U16) : DpcStatus :=
  {
    dpc_trigger_status := flag w 0,
    dpc_trigger_reason := DpcTriggerReason.spec (fld w 1 2) (fld w 5 2),
    dpc_interrupt_status := flag w 3, dpc_rp_busy := flag w 4,
    rp_pio_first_error_pointer := fld w 8 5 }

/-- Layout of `RpPio`. -/
def RpPio.spec (w : U32) : RpPio :=
  {
    cfg_ur_cpl := flag w 0, cfg_ca_cpl := flag w 1, cfg_cto := flag w 2, io_ur_cpl := flag w 8,
    io_ca_cpl := flag w 9, io_cto := flag w 10, mem_ur_cpl := flag w 16, mem_ca_cpl := flag w 17,
    mem_cto := flag w 18 }

/-- RP PIO Log Size. -/
def logSize (d : Bytes) : Nat := (fld (rd16 d 0) 8 4 : U8).toNat

/-- Dwords of TLP prefix log: log size less 5, at most 4. -/
def prefixDwords (d : Bytes) : Nat := min (logSize d - 5) 4

/-- RP extension registers; offsets are those of the PCI Express specification less 4. -/
def RpExtensions.spec (d : Bytes) : RpExtensions where
  rp_pio_status := .spec (rd32 d 8)
  rp_pio_mask := .spec (rd32 d 12)
  rp_pio_severity := .spec (rd32 d 16)
  rp_pio_syserr := .spec (rd32 d 20)
  rp_pio_exception := .spec (rd32 d 24)
  rp_pio_header_log := { val := rd32s d 28 4 }
  rp_pio_impspec_log := if 5 ≤ logSize d then some (rd32 d 44) else none
  rp_pio_tlp_prefix_log :=
    if 5 < logSize d then
      some { val := rd32s d 48 (prefixDwords d) ++ List.replicate (4 - prefixDwords d) 0 }
    else none

def DownstreamPortContainment.spec (d : Bytes) (ext : Option RpExtensions) :
    DownstreamPortContainment where
  dpc_capability := .spec (rd16 d 0)
  dpc_control := .spec (rd16 d 2)
  dpc_status := .spec (rd16 d 4)
  dpc_error_source_id := rd16 d 6
  rp_extensions := ext

end Pcics.DownstreamPortContainment
