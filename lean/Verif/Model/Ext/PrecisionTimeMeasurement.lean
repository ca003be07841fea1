import Verif.Model.Common
/- Model of src/extended_capabilities/precision_time_measurement.rs -/

namespace Pcics.PrecisionTimeMeasurement

/-- src/extended_capabilities/precision_time_measurement.rs:77-86 -/
structure PtmCapability where
  ptm_requester_capable : Bool
  ptm_responder_capable : Bool
  ptm_root_capable : Bool
  local_clock_granularity : U8
  deriving DecidableEq, Repr

/-- src/extended_capabilities/precision_time_measurement.rs:108-115 -/
structure PtmControl where
  ptm_enable : Bool
  root_select : Bool
  effective_granularity : U8
  deriving DecidableEq, Repr

/-- src/extended_capabilities/precision_time_measurement.rs:49-54 -/
structure PrecisionTimeMeasurement where
  ptm_capability : PtmCapability
  ptm_control : PtmControl
  deriving DecidableEq, Repr

/-- src/extended_capabilities/precision_time_measurement.rs:88-105 -/
def PtmCapability.ofU32 (w : U32) : PtmCapability := runBits w do
  let ptm_requester_capable ← bit
  let ptm_responder_capable ← bit
  let ptm_root_capable ← bit
  skip 5
  let local_clock_granularity ← bits 8
  skip 16
  return {
    ptm_requester_capable := ptm_requester_capable,
    ptm_responder_capable := ptm_responder_capable, ptm_root_capable := ptm_root_capable,
    local_clock_granularity := local_clock_granularity }

/-- src/extended_capabilities/precision_time_measurement.rs:117-127 -/
def PtmControl.ofU32 (w : U32) : PtmControl := runBits w do
  let ptm_enable ← bit
  let root_select ← bit
  skip 6
  let effective_granularity ← bits 8
  skip 16
  return {
    ptm_enable := ptm_enable, root_select := root_select,
    effective_granularity := effective_granularity }

/-- src/extended_capabilities/precision_time_measurement.rs:55-73 -/
def PrecisionTimeMeasurement.ofBytes (slice : Bytes) : Res ExtendedCapabilityDataError PrecisionTimeMeasurement := do
  let (ptm_capability, ptm_control) ← BP.head (do
    let ptm_capability ← le32
    let ptm_control ← le32
    return (ptm_capability, ptm_control))
    { name := "Precision Time Measurement", size := 8 } slice
  return {
    ptm_capability := PtmCapability.ofU32 ptm_capability,
    ptm_control := PtmControl.ofU32 ptm_control }

end Pcics.PrecisionTimeMeasurement
