import Verif.Model.Ext.RootComplexInternalLinkControl
import Verif.Spec.Cap.PciExpress
/- Specification of src/extended_capabilities/root_complex_internal_link_control.rs: positions and value tables. -/

namespace Pcics.RootComplexInternalLinkControl
open Spec PciExpress

/-- Layout of `RootComplexLinkCapabilities`. -/
def RootComplexLinkCapabilities.spec (w : U32) : RootComplexLinkCapabilities :=
  {
    max_link_speed := LinkSpeed.spec (fld w 0 4),
    maximum_link_width := LinkWidth.spec (fld w 4 6),
    active_state_power_management_support := ActiveStatePowerManagement.spec (fld w 10 2),
    l0s_exit_latency := L0sExitLatency.spec (fld w 12 3),
    l1_exit_latency := L1ExitLatency.spec (fld w 15 3),
    supported_link_speeds_vector := SupportedLinkSpeedsVector.spec (fld w 18 7) }

/-- Layout of `RootComplexLinkControl`. -/
def RootComplexLinkControl.spec (w : U16) : RootComplexLinkControl :=
  {
    active_state_power_management_control := ActiveStatePowerManagement.spec (fld w 0 2),
    extended_synch := flag w 7 }

/-- Layout of `RootComplexLinkStatus`. -/
def RootComplexLinkStatus.spec (w : U16) : RootComplexLinkStatus :=
  {
    current_link_speed := LinkSpeed.spec (fld w 0 4),
    negotiated_link_width := LinkWidth.spec (fld w 4 6) }

/-- `d` starts after the extended capability header. -/
def RootComplexInternalLinkControl.spec (d : Bytes) : RootComplexInternalLinkControl where
  root_complex_link_capabilities := .spec (rd32 d 0)
  root_complex_link_control := .spec (rd16 d 4)
  root_complex_link_status := .spec (rd16 d 6)

end Pcics.RootComplexInternalLinkControl
