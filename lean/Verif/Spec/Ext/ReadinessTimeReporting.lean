import Verif.Model.Ext.ReadinessTimeReporting
import Verif.Spec
/- Specification of src/extended_capabilities/readiness_time_reporting.rs: positions and value tables. -/

namespace Pcics.ReadinessTimeReporting
open Spec

/-- Layout of `ReadinessTime`. -/
def ReadinessTime.spec (w : U16) : ReadinessTime :=
  { value := fld w 0 9, scale := fld w 9 3 }

/-- `d` starts with the extended capability header. -/
def ReadinessTimeReporting.spec (d : Bytes) : ReadinessTimeReporting where
  reset_time := { value := fld (rd32 d 4) 0 9, scale := fld (rd32 d 4) 9 3 }
  dl_up_time := { value := fld (rd32 d 4) 12 9, scale := fld (rd32 d 4) 21 3 }
  valid := flag (rd32 d 4) 31
  flr_time := { value := fld (rd32 d 8) 0 9, scale := fld (rd32 d 8) 9 3 }
  d3hot_to_d0_time := { value := fld (rd32 d 8) 12 9, scale := fld (rd32 d 8) 21 3 }

end Pcics.ReadinessTimeReporting
