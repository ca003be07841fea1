import Verif.Model.Ext.AlternativeRoutingIdInterpolation
import Verif.Spec
/- Specification of src/extended_capabilities/alternative_routing_id_interpolation.rs: positions and value tables. -/

namespace Pcics.AlternativeRoutingIdInterpolation
open Spec

/-- Layout of `AriCapability`. -/
def AriCapability.spec (w : U16) : AriCapability :=
  {
    mfvc_function_groups_capability := flag w 0, acs_function_groups_capability := flag w 1,
    next_function_number := fld w 8 8 }

/-- Layout of `AriControl`. -/
def AriControl.spec (w : U16) : AriControl :=
  {
    mfvc_function_groups_enable := flag w 0, acs_function_groups_enable := flag w 1,
    function_group := fld w 4 3 }

/-- `d` starts after the extended capability header. -/
def AlternativeRoutingIdInterpretation.spec (d : Bytes) : AlternativeRoutingIdInterpretation where
  ari_capability := .spec (rd16 d 0)
  ari_control := .spec (rd16 d 2)

end Pcics.AlternativeRoutingIdInterpolation
