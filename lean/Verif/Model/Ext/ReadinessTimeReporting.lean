import Verif.Model.Common
/- Model of src/extended_capabilities/readiness_time_reporting.rs -/

namespace Pcics.ReadinessTimeReporting

/-- src/extended_capabilities/readiness_time_reporting.rs:107-110 -/
structure ReadinessTime where
  value : U16
  scale : U8
  deriving DecidableEq, Repr

/-- src/extended_capabilities/readiness_time_reporting.rs:54-70 -/
structure ReadinessTimeReporting where
  reset_time : ReadinessTime
  dl_up_time : ReadinessTime
  valid : Bool
  flr_time : ReadinessTime
  d3hot_to_d0_time : ReadinessTime
  deriving DecidableEq, Repr

/-- src/extended_capabilities/readiness_time_reporting.rs:119-124 -/
def ReadinessTime.ofU16 (w : U16) : ReadinessTime := runBits w do
  let value ← bits 9
  let scale ← bits 3
  skip 4
  return { value := value, scale := scale }

/-- src/extended_capabilities/readiness_time_reporting.rs:114-116; `scale * 5` is a `u8` product and
the `u64` is shifted by it: overflow of the product or a shift by 64 or more is a panic (checked
build). -/
def ReadinessTime.actualTimeValue {ε : Type} (t : ReadinessTime) : Res ε U64 :=
  if t.scale.toNat * 5 < 256 ∧ t.scale.toNat * 5 < 64 then
    .ok (t.value.setWidth 64 <<< (t.scale.toNat * 5))
  else .panic

/-- src/extended_capabilities/readiness_time_reporting.rs:77-103 -/
def ReadinessTimeReporting.ofBytes (slice : Bytes) :
    Res ExtendedCapabilityDataError ReadinessTimeReporting := do
  let slice := (getFrom slice 4).getD []
  let (r1, r2) ← BP.head (do
    let r1 ← le32
    let r2 ← le32
    return (r1, r2)) { name := "Readiness Time Reporting", size := 0x0c } slice
  let (reset_time, dl_up_time, valid) := runBits r1 do
    let reset_time ← bits 12
    let dl_up_time ← bits 12
    skip 7
    let valid ← bit
    return (reset_time, dl_up_time, valid)
  let (flr_time, d3hot_to_d0_time) := runBits r2 do
    let flr_time ← bits 12
    let d3hot_to_d0_time ← bits 12
    skip 8
    return (flr_time, d3hot_to_d0_time)
  return {
    reset_time := ReadinessTime.ofU16 reset_time
    dl_up_time := ReadinessTime.ofU16 dl_up_time
    valid := valid
    flr_time := ReadinessTime.ofU16 flr_time
    d3hot_to_d0_time := ReadinessTime.ofU16 d3hot_to_d0_time }

end Pcics.ReadinessTimeReporting
