import Verif.Model.Common
/- Model of src/extended_capabilities/latency_tolerance_reporting.rs -/

namespace Pcics.LatencyToleranceReporting

/-- src/extended_capabilities/latency_tolerance_reporting.rs:65-70 -/
structure MaxLatency where
  value : U16
  scale : U8
  deriving DecidableEq, Repr

/-- src/extended_capabilities/latency_tolerance_reporting.rs:38-43 -/
structure LatencyToleranceReporting where
  max_snoop_latency : MaxLatency
  max_no_snoop_latency : MaxLatency
  deriving DecidableEq, Repr

/-- src/extended_capabilities/latency_tolerance_reporting.rs:80-85 -/
def MaxLatency.ofU16 (w : U16) : MaxLatency := runBits w do
  let value ← bits 10
  let scale ← bits 3
  skip 3
  return { value := value, scale := scale }

/-- src/extended_capabilities/latency_tolerance_reporting.rs:44-62 -/
def LatencyToleranceReporting.ofBytes (slice : Bytes) : Res ExtendedCapabilityDataError LatencyToleranceReporting := do
  let (max_snoop_latency, max_no_snoop_latency) ← BP.head (do
    let max_snoop_latency ← le16
    let max_no_snoop_latency ← le16
    return (max_snoop_latency, max_no_snoop_latency))
    { name := "Latency Tolerance Reporting", size := 8 } slice
  return {
    max_snoop_latency := MaxLatency.ofU16 max_snoop_latency,
    max_no_snoop_latency := MaxLatency.ofU16 max_no_snoop_latency }

/-- src/extended_capabilities/latency_tolerance_reporting.rs:72-77; `usize` is taken as 64 bits. -/
def MaxLatency.value' (m : MaxLatency) : U64 :=
  if m.scale.toNat ≤ 5 then m.value.setWidth 64 <<< (5 * m.scale.toNat) else 0

/-- src/extended_capabilities/latency_tolerance_reporting.rs:87-91 -/
def MaxLatency.toU16 (data : MaxLatency) : U16 :=
  data.scale.setWidth 16 <<< 13 ||| data.value

end Pcics.LatencyToleranceReporting
