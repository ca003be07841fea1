import Verif.Model.Common
/- Model of src/extended_capabilities/dynamic_power_allocation.rs -/

namespace Pcics.DynamicPowerAllocation

/-- src/extended_capabilities/dynamic_power_allocation.rs:65-70 -/
inductive DynamicPowerAllocationError where
  | Mandatory
  | DpaAllocationArray (expected : Nat) (found : Nat)
  deriving DecidableEq, Repr

/-- src/extended_capabilities/dynamic_power_allocation.rs:155-164 -/
inductive TransitionLatencyUnit where
  | Unit1ms
  | Unit10ms
  | Unit100ms
  | Reserved
  deriving DecidableEq, Repr

/-- src/extended_capabilities/dynamic_power_allocation.rs:180-189 -/
inductive PowerAllocationScale where
  | Mul10
  | Mul1_0
  | Mul0_1
  | Mul0_01
  deriving DecidableEq, Repr

/-- src/extended_capabilities/dynamic_power_allocation.rs:116-128 -/
structure DpaCapability where
  substate_max : U8
  transition_latency_unit : TransitionLatencyUnit
  power_allocation_scale : PowerAllocationScale
  transition_latency_value_0 : U8
  transition_latency_value_1 : U8
  deriving DecidableEq, Repr

/-- src/extended_capabilities/dynamic_power_allocation.rs:205-211 -/
structure DpaStatus where
  substate_status : U8
  substate_control_enabled : Bool
  deriving DecidableEq, Repr

/-- src/extended_capabilities/dynamic_power_allocation.rs:226-228 -/
structure DpaControl where
  substate_control : U8
  deriving DecidableEq, Repr

/-- src/extended_capabilities/dynamic_power_allocation.rs:242-242 -/
structure DpaPowerAllocationArray where
  val : Bytes
  deriving DecidableEq, Repr

/-- src/extended_capabilities/dynamic_power_allocation.rs:73-81 -/
structure DynamicPowerAllocation where
  dpa_capability : DpaCapability
  dpa_latency_indicator : U32
  dpa_status : DpaStatus
  dpa_control : DpaControl
  dpa_power_allocation_array : DpaPowerAllocationArray
  deriving DecidableEq, Repr

/-- src/extended_capabilities/dynamic_power_allocation.rs:166-176 -/
def TransitionLatencyUnit.ofU8 {ε : Type} (b : U8) : Res ε TransitionLatencyUnit :=
  match b.toNat with
  | 0b00 => .ok .Unit1ms
  | 0b01 => .ok .Unit10ms
  | 0b10 => .ok .Unit100ms
  | 0b11 => .ok .Reserved
  | _ => .panic

/-- src/extended_capabilities/dynamic_power_allocation.rs:191-201 -/
def PowerAllocationScale.ofU8 {ε : Type} (b : U8) : Res ε PowerAllocationScale :=
  match b.toNat with
  | 0b00 => .ok .Mul10
  | 0b01 => .ok .Mul1_0
  | 0b10 => .ok .Mul0_1
  | 0b11 => .ok .Mul0_01
  | _ => .panic

/-- src/extended_capabilities/dynamic_power_allocation.rs:130-150 -/
def DpaCapability.ofU32 {ε : Type} (w : U32) : Res ε DpaCapability := runBits w do
  let substate_max ← bits 5
  skip 3
  let transition_latency_unit ← bits 2
  skip 2
  let power_allocation_scale ← bits 2
  skip 2
  let transition_latency_value_0 ← bits 8
  let transition_latency_value_1 ← bits 8
  return do
    let transition_latency_unit ← TransitionLatencyUnit.ofU8 transition_latency_unit
    let power_allocation_scale ← PowerAllocationScale.ofU8 power_allocation_scale
    return {
      substate_max := substate_max, transition_latency_unit := transition_latency_unit,
      power_allocation_scale := power_allocation_scale,
      transition_latency_value_0 := transition_latency_value_0,
      transition_latency_value_1 := transition_latency_value_1 }

/-- src/extended_capabilities/dynamic_power_allocation.rs:213-222 -/
def DpaStatus.ofU16 (w : U16) : DpaStatus := runBits w do
  let substate_status ← bits 5
  skip 3
  let substate_control_enabled ← bit
  skip 7
  return {
    substate_status := substate_status, substate_control_enabled := substate_control_enabled }

/-- src/extended_capabilities/dynamic_power_allocation.rs:230-235 -/
def DpaControl.ofU16 (w : U16) : DpaControl := runBits w do
  let substate_control ← bits 5
  skip 11
  return { substate_control := substate_control }

/-- src/extended_capabilities/dynamic_power_allocation.rs:83-112 -/
def DynamicPowerAllocation.ofBytes (slice : Bytes) :
    Res DynamicPowerAllocationError DynamicPowerAllocation := do
  let slice := (getFrom slice 4).getD []
  let ((dpa_capability, dpa_latency_indicator, dpa_status, dpa_control), tail) ← BP.seq (do
    let dpa_capability ← le32
    let dpa_latency_indicator ← le32
    let dpa_status ← le16
    let dpa_control ← le16
    return (dpa_capability, dpa_latency_indicator, dpa_status, dpa_control)) .Mandatory slice
  let dpa_capability ← DpaCapability.ofU32 dpa_capability
  let substate_max := dpa_capability.substate_max.toNat
  match getTo tail (substate_max + 1) with
  | none => .err (.DpaAllocationArray substate_max tail.length)
  | some slice => .ok {
      dpa_capability := dpa_capability, dpa_latency_indicator := dpa_latency_indicator,
      dpa_control := DpaControl.ofU16 dpa_control, dpa_status := DpaStatus.ofU16 dpa_status,
      dpa_power_allocation_array := ⟨slice⟩ }

end Pcics.DynamicPowerAllocation
