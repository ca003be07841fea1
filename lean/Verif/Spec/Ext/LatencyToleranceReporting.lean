import Verif.Model.Ext.LatencyToleranceReporting
import Verif.Spec
/- Specification of src/extended_capabilities/latency_tolerance_reporting.rs: positions and value tables. -/

namespace Pcics.LatencyToleranceReporting
open Spec

/-- Layout of `MaxLatency`. -/
def MaxLatency.spec (w : U16) : MaxLatency :=
  { value := fld w 0 10, scale := fld w 10 3 }

/-- `d` starts after the extended capability header. -/
def LatencyToleranceReporting.spec (d : Bytes) : LatencyToleranceReporting where
  max_snoop_latency := .spec (rd16 d 0)
  max_no_snoop_latency := .spec (rd16 d 2)

end Pcics.LatencyToleranceReporting
