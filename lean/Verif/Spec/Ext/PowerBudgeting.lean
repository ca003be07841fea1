import Verif.Model.Ext.PowerBudgeting
import Verif.Spec
/- Specification of src/extended_capabilities/power_budgeting.rs: positions and value tables. -/

namespace Pcics.PowerBudgeting
open Spec

/-- Values of `BasePower`. -/
def BasePower.spec (c : U8) : BasePower :=
  if c.toNat < 0xf0 then .Value c else
  pick c [(240, .Gt239Le250), (241, .Gt250Le275), (242, .Gt275Le300)] .Gt300

/-- Values of `DataScale`. -/
def DataScale.spec (c : U8) : DataScale :=
  pick c [(0, .One), (1, .Deci), (2, .Centi)] .Milli

/-- Values of `PmSubState`. -/
def PmSubState.spec (c : U8) : PmSubState :=
  pick c [(0, .Default)] (.Specific c)

/-- Values of `PmState`. -/
def PmState.spec (c : U8) : PmState :=
  pick c [(0, .D0), (1, .D1), (2, .D2)] .D3

/-- Values of `OperationConditionType`. -/
def OperationConditionType.spec (c : U8) : OperationConditionType :=
  pick c [(0, .PmeAux), (1, .Auxiliary), (2, .Idle), (3, .Sustained),
    (4, .SustainedEmergencyPowerReductionState), (5, .MaximumEmergencyPowerReductionState),
    (7, .Maximum)] (.Reserved c)

/-- Values of `PowerRail`: 000b 12 V, 001b 3.3 V, 010b 1.5 V or 1.8 V, 111b thermal. -/
def PowerRail.spec (c : U8) : PowerRail :=
  pick c [(0, .Power12v), (1, .Power3_3v), (2, .Power1_5vOr1_8v), (7, .Thermal)] (.Reserved c)

/-- What the code takes the codes for instead (C60): thermal is 011b. -/
def PowerRail.read (c : U8) : PowerRail :=
  pick c [(0, .Power12v), (1, .Power3_3v), (2, .Power1_5vOr1_8v), (3, .Thermal)] (.Reserved c)

/-- `d` starts after the extended capability header; `rail` is the meaning of the power rail code. -/
def PowerBudgeting.spec (rail : U8 → PowerRail) (d : Bytes) : PowerBudgeting where
  data_select := byteAt d 0
  data := {
    base_power := .spec (fld (rd32 d 4) 0 8)
    data_scale := .spec (fld (rd32 d 4) 8 2)
    pm_sub_state := .spec (fld (rd32 d 4) 10 3)
    pm_state := .spec (fld (rd32 d 4) 13 2)
    operation_condition_type := .spec (fld (rd32 d 4) 15 3)
    power_rail := rail (fld (rd32 d 4) 18 3) }
  power_budget_capability := { system_allocated := flag (byteAt d 8) 0 }

end Pcics.PowerBudgeting
