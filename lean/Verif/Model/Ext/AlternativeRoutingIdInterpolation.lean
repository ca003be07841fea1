import Verif.Model.Common
/- Model of src/extended_capabilities/alternative_routing_id_interpolation.rs -/

namespace Pcics.AlternativeRoutingIdInterpolation

/-- src/extended_capabilities/alternative_routing_id_interpolation.rs:75-82 -/
structure AriCapability where
  mfvc_function_groups_capability : Bool
  acs_function_groups_capability : Bool
  next_function_number : U8
  deriving DecidableEq, Repr

/-- src/extended_capabilities/alternative_routing_id_interpolation.rs:102-109 -/
structure AriControl where
  mfvc_function_groups_enable : Bool
  acs_function_groups_enable : Bool
  function_group : U8
  deriving DecidableEq, Repr

/-- src/extended_capabilities/alternative_routing_id_interpolation.rs:49-52 -/
structure AlternativeRoutingIdInterpretation where
  ari_capability : AriCapability
  ari_control : AriControl
  deriving DecidableEq, Repr

/-- src/extended_capabilities/alternative_routing_id_interpolation.rs:84-98 -/
def AriCapability.ofU16 (w : U16) : AriCapability := runBits w do
  let mfvc_function_groups_capability ← bit
  let acs_function_groups_capability ← bit
  skip 6
  let next_function_number ← bits 8
  return {
    mfvc_function_groups_capability := mfvc_function_groups_capability,
    acs_function_groups_capability := acs_function_groups_capability,
    next_function_number := next_function_number }

/-- src/extended_capabilities/alternative_routing_id_interpolation.rs:111-121 -/
def AriControl.ofU16 (w : U16) : AriControl := runBits w do
  let mfvc_function_groups_enable ← bit
  let acs_function_groups_enable ← bit
  skip 2
  let function_group ← bits 3
  skip 9
  return {
    mfvc_function_groups_enable := mfvc_function_groups_enable,
    acs_function_groups_enable := acs_function_groups_enable, function_group := function_group }

/-- src/extended_capabilities/alternative_routing_id_interpolation.rs:53-71 -/
def AlternativeRoutingIdInterpretation.ofBytes (slice : Bytes) : Res ExtendedCapabilityDataError AlternativeRoutingIdInterpretation := do
  let (ari_capability, ari_control) ← BP.head (do
    let ari_capability ← le16
    let ari_control ← le16
    return (ari_capability, ari_control))
    { name := "Alternative Routing-ID Interpretation", size := 4 } slice
  return {
    ari_capability := AriCapability.ofU16 ari_capability,
    ari_control := AriControl.ofU16 ari_control }

end Pcics.AlternativeRoutingIdInterpolation
