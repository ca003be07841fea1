import Verif.Model.Common
/- Model of src/extended_capabilities/power_budgeting.rs -/

namespace Pcics.PowerBudgeting

/-- src/extended_capabilities/power_budgeting.rs:108-114 -/
inductive BasePower where
  | Value (v : U8)
  | Gt239Le250
  | Gt250Le275
  | Gt275Le300
  | Gt300
  deriving DecidableEq, Repr

/-- src/extended_capabilities/power_budgeting.rs:129-138 -/
inductive DataScale where
  | One
  | Deci
  | Centi
  | Milli
  deriving DecidableEq, Repr

/-- src/extended_capabilities/power_budgeting.rs:163-168 -/
inductive PmSubState where
  | Default
  | Specific (v : U8)
  deriving DecidableEq, Repr

/-- src/extended_capabilities/power_budgeting.rs:180-185 -/
inductive PmState where
  | D0
  | D1
  | D2
  | D3
  deriving DecidableEq, Repr

/-- src/extended_capabilities/power_budgeting.rs:200-217 -/
inductive OperationConditionType where
  | PmeAux
  | Auxiliary
  | Idle
  | Sustained
  | SustainedEmergencyPowerReductionState
  | MaximumEmergencyPowerReductionState
  | Maximum
  | Reserved (v : U8)
  deriving DecidableEq, Repr

/-- src/extended_capabilities/power_budgeting.rs:235-246 -/
inductive PowerRail where
  | Power12v
  | Power3_3v
  | Power1_5vOr1_8v
  | Thermal
  | Reserved (v : U8)
  deriving DecidableEq, Repr

/-- src/extended_capabilities/power_budgeting.rs:97-104 -/
structure Data where
  base_power : BasePower
  data_scale : DataScale
  pm_sub_state : PmSubState
  pm_state : PmState
  operation_condition_type : OperationConditionType
  power_rail : PowerRail
  deriving DecidableEq, Repr

/-- src/extended_capabilities/power_budgeting.rs:261-264 -/
structure PowerBudgetCapability where
  system_allocated : Bool
  deriving DecidableEq, Repr

/-- src/extended_capabilities/power_budgeting.rs:50-55 -/
structure PowerBudgeting where
  data_select : U8
  data : Data
  power_budget_capability : PowerBudgetCapability
  deriving DecidableEq, Repr

/-- src/extended_capabilities/power_budgeting.rs:115-125 -/
def BasePower.ofU8 (b : U8) : BasePower :=
  if b.toNat ≤ 0xEF then .Value b else
  match b.toNat with
  | 0xF0 => .Gt239Le250
  | 0xF1 => .Gt250Le275
  | 0xF2 => .Gt275Le300
  | _ => .Gt300

/-- src/extended_capabilities/power_budgeting.rs:149-159 -/
def DataScale.ofU8 {ε : Type} (b : U8) : Res ε DataScale :=
  match b.toNat with
  | 0b00 => .ok .One
  | 0b01 => .ok .Deci
  | 0b10 => .ok .Centi
  | 0b11 => .ok .Milli
  | _ => .panic

/-- src/extended_capabilities/power_budgeting.rs:169-176 -/
def PmSubState.ofU8 (b : U8) : PmSubState :=
  match b.toNat with
  | 0b00 => .Default
  | _ => .Specific b

/-- src/extended_capabilities/power_budgeting.rs:186-196 -/
def PmState.ofU8 {ε : Type} (b : U8) : Res ε PmState :=
  match b.toNat with
  | 0b00 => .ok .D0
  | 0b01 => .ok .D1
  | 0b10 => .ok .D2
  | 0b11 => .ok .D3
  | _ => .panic

/-- src/extended_capabilities/power_budgeting.rs:218-231 -/
def OperationConditionType.ofU8 (b : U8) : OperationConditionType :=
  match b.toNat with
  | 0b000 => .PmeAux
  | 0b001 => .Auxiliary
  | 0b010 => .Idle
  | 0b011 => .Sustained
  | 0b100 => .SustainedEmergencyPowerReductionState
  | 0b101 => .MaximumEmergencyPowerReductionState
  | 0b111 => .Maximum
  | _ => .Reserved b

/-- src/extended_capabilities/power_budgeting.rs:247-257 -/
def PowerRail.ofU8 (b : U8) : PowerRail :=
  match b.toNat with
  | 0b00 => .Power12v
  | 0b01 => .Power3_3v
  | 0b10 => .Power1_5vOr1_8v
  | 0b11 => .Thermal
  | _ => .Reserved b

/-- src/extended_capabilities/power_budgeting.rs:56-93 -/
def PowerBudgeting.ofBytes (slice : Bytes) : Res ExtendedCapabilityDataError PowerBudgeting := do
  let (data_select, data, power_budget_capability) ← BP.head (do
    let data_select ← le8
    let _ ← bytesN 3
    let data ← le32
    let power_budget_capability ← le8
    let _ ← bytesN 3
    return (data_select, data, power_budget_capability))
    { name := "Power Budgeting", size := 12 } slice
  let data ← runBits data do
    let base_power ← bits 8
    let data_scale ← bits 2
    let pm_sub_state ← bits 3
    let pm_state ← bits 2
    let operation_condition_type ← bits 3
    let power_rail ← bits 3
    skip 11
    return do
      let data_scale ← DataScale.ofU8 data_scale
      let pm_state ← PmState.ofU8 pm_state
      return {
        base_power := BasePower.ofU8 base_power
        data_scale := data_scale
        pm_sub_state := PmSubState.ofU8 pm_sub_state
        pm_state := pm_state
        operation_condition_type := OperationConditionType.ofU8 operation_condition_type
        power_rail := PowerRail.ofU8 power_rail : Data }
  let system_allocated := runBits power_budget_capability do
    let system_allocated ← bit
    skip 7
    return system_allocated
  return {
    data_select := data_select
    data := data
    power_budget_capability := { system_allocated := system_allocated } }

end Pcics.PowerBudgeting
