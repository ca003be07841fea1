import Verif.Model.Ext.PrecisionTimeMeasurement
import Verif.Spec
/- Specification of src/extended_capabilities/precision_time_measurement.rs: positions and value tables. -/

namespace Pcics.PrecisionTimeMeasurement
open Spec

/-- Layout of `PtmCapability`. -/
def PtmCapability.spec (w : U32) : PtmCapability :=
  {
    ptm_requester_capable := flag w 0, ptm_responder_capable := flag w 1,
    ptm_root_capable := flag w 2, local_clock_granularity := fld w 8 8 }

/-- Layout of `PtmControl`. -/
def PtmControl.spec (w : U32) : PtmControl :=
  {
    ptm_enable := flag w 0, root_select := flag w 1, effective_granularity := fld w 8 8 }

/-- `d` starts after the extended capability header. -/
def PrecisionTimeMeasurement.spec (d : Bytes) : PrecisionTimeMeasurement where
  ptm_capability := .spec (rd32 d 0)
  ptm_control := .spec (rd32 d 4)

end Pcics.PrecisionTimeMeasurement
