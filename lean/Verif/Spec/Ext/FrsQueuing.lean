import Verif.Model.Ext.FrsQueuing
import Verif.Spec
/- Specification of src/extended_capabilities/frs_queuing.rs: positions and value tables. -/

namespace Pcics.FrsQueuing
open Spec

/-- Layout of `FrsQueuingCapability`. -/
def FrsQueuingCapability.spec (w : U32) : FrsQueuingCapability :=
  { frs_queue_max_depth := fld w 0 12, frs_interrupt_message_number := fld w 16 5 }

/-- Layout of `FrsQueuingStatus`. -/
def FrsQueuingStatus.spec (w : U16) : FrsQueuingStatus :=
  { frs_message_received := flag w 0, frs_message_overflow := flag w 1 }

/-- Layout of `FrsQueuingControl`. -/
def FrsQueuingControl.spec (w : U16) : FrsQueuingControl :=
  { frs_interrupt_enable := flag w 0 }

/-- Layout of `FrsMessageQueue`. -/
def FrsMessageQueue.spec (w : U32) : FrsMessageQueue :=
  {
    frs_message_queue_function_id := fld w 0 16, frs_message_queue_reason := fld w 16 4,
    frs_message_queue_depth := fld w 20 12 }

/-- `d` starts with the extended capability header. -/
def FrsQueuing.spec (d : Bytes) : FrsQueuing where
  frs_queuing_capability := .spec (rd32 d 4)
  frs_queuing_status := .spec (rd16 d 8)
  frs_queuing_control := .spec (rd16 d 10)
  frs_message_queue := .spec (rd32 d 12)

end Pcics.FrsQueuing
