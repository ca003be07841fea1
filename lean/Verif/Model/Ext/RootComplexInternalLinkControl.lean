import Verif.Model.Cap.PciExpress
/- Model of src/extended_capabilities/root_complex_internal_link_control.rs -/

namespace Pcics.RootComplexInternalLinkControl
open PciExpress

/-- src/extended_capabilities/root_complex_internal_link_control.rs:120-127 -/
structure RootComplexLinkCapabilities where
  max_link_speed : LinkSpeed
  maximum_link_width : LinkWidth
  active_state_power_management_support : ActiveStatePowerManagement
  l0s_exit_latency : L0sExitLatency
  l1_exit_latency : L1ExitLatency
  supported_link_speeds_vector : SupportedLinkSpeedsVector
  deriving DecidableEq, Repr

/-- src/extended_capabilities/root_complex_internal_link_control.rs:155-160 -/
structure RootComplexLinkControl where
  active_state_power_management_control : ActiveStatePowerManagement
  extended_synch : Bool
  deriving DecidableEq, Repr

/-- src/extended_capabilities/root_complex_internal_link_control.rs:177-180 -/
structure RootComplexLinkStatus where
  current_link_speed : LinkSpeed
  negotiated_link_width : LinkWidth
  deriving DecidableEq, Repr

/-- src/extended_capabilities/root_complex_internal_link_control.rs:78-85 -/
structure RootComplexInternalLinkControl where
  root_complex_link_capabilities : RootComplexLinkCapabilities
  root_complex_link_control : RootComplexLinkControl
  root_complex_link_status : RootComplexLinkStatus
  deriving DecidableEq, Repr

/-- src/extended_capabilities/root_complex_internal_link_control.rs:129-151 -/
def RootComplexLinkCapabilities.ofU32 {ε : Type} (w : U32) : Res ε RootComplexLinkCapabilities := runBits w do
  let max_link_speed ← bits 4
  let maximum_link_width ← bits 6
  let active_state_power_management_support ← bits 2
  let l0s_exit_latency ← bits 3
  let l1_exit_latency ← bits 3
  let supported_link_speeds_vector ← bits 7
  skip 7
  return do
    let active_state_power_management_support ← ActiveStatePowerManagement.ofU8 active_state_power_management_support
    let l0s_exit_latency ← L0sExitLatency.ofU8 l0s_exit_latency
    let l1_exit_latency ← L1ExitLatency.ofU8 l1_exit_latency
    return {
      max_link_speed := LinkSpeed.ofU8 max_link_speed,
      maximum_link_width := LinkWidth.ofU8 maximum_link_width,
      active_state_power_management_support := active_state_power_management_support,
      l0s_exit_latency := l0s_exit_latency, l1_exit_latency := l1_exit_latency,
      supported_link_speeds_vector := SupportedLinkSpeedsVector.ofU8 supported_link_speeds_vector }

/-- src/extended_capabilities/root_complex_internal_link_control.rs:162-173 -/
def RootComplexLinkControl.ofU16 {ε : Type} (w : U16) : Res ε RootComplexLinkControl := runBits w do
  let active_state_power_management_control ← bits 2
  skip 5
  let extended_synch ← bit
  skip 8
  return do
    let active_state_power_management_control ← ActiveStatePowerManagement.ofU8 active_state_power_management_control
    return {
      active_state_power_management_control := active_state_power_management_control,
      extended_synch := extended_synch }

/-- src/extended_capabilities/root_complex_internal_link_control.rs:182-190 -/
def RootComplexLinkStatus.ofU16 (w : U16) : RootComplexLinkStatus := runBits w do
  let current_link_speed ← bits 4
  let negotiated_link_width ← bits 6
  skip 6
  return {
    current_link_speed := LinkSpeed.ofU8 current_link_speed,
    negotiated_link_width := LinkWidth.ofU8 negotiated_link_width }

/-- src/extended_capabilities/root_complex_internal_link_control.rs:87-89 -/
def RootComplexInternalLinkControl.SIZE : Nat := 8

/-- src/extended_capabilities/root_complex_internal_link_control.rs:91-104 -/
def RootComplexInternalLinkControl.ofArray {ε : Type} (bytes : Bytes) : Res ε RootComplexInternalLinkControl := do
  let (root_complex_link_capabilities, root_complex_link_control, root_complex_link_status) ← BP.arr (do
    let root_complex_link_capabilities ← le32
    let root_complex_link_control ← le16
    let root_complex_link_status ← le16
    return (root_complex_link_capabilities, root_complex_link_control, root_complex_link_status)) bytes
  let root_complex_link_capabilities ← RootComplexLinkCapabilities.ofU32 root_complex_link_capabilities
  let root_complex_link_control ← RootComplexLinkControl.ofU16 root_complex_link_control
  return {
    root_complex_link_capabilities := root_complex_link_capabilities,
    root_complex_link_control := root_complex_link_control,
    root_complex_link_status := RootComplexLinkStatus.ofU16 root_complex_link_status }

/-- src/extended_capabilities/root_complex_internal_link_control.rs:106-116 -/
def RootComplexInternalLinkControl.ofBytes (slice : Bytes) : Res ExtendedCapabilityDataError RootComplexInternalLinkControl := do
  let head ← BP.head (bytesN RootComplexInternalLinkControl.SIZE)
    { name := "Root Complex Internal Link Control", size := RootComplexInternalLinkControl.SIZE } slice
  RootComplexInternalLinkControl.ofArray head

end Pcics.RootComplexInternalLinkControl
