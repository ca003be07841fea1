import Verif.Spec.Ext.PowerBudgeting
import Verif.Lemmas.Tactics
import Verif.Lemmas.Bv
/- Properties of src/extended_capabilities/power_budgeting.rs -/

namespace Pcics.PowerBudgeting
open Spec

/-- C60: meaning of every code of `BasePower`. -/
theorem BasePower_values (b : U8) : BasePower.ofU8 b = BasePower.spec b := by
  revert b; decide +kernel

/-- C60: the `4` codes of `DataScale` decode without panic, to their meanings. -/
theorem DataScale_total {ε : Type} (n : Nat) :
    (DataScale.ofU8 (BitVec.ofNat 8 (n % 4)) : Res ε DataScale) =
      .ok (DataScale.spec (BitVec.ofNat 8 (n % 4))) := by
  have h : n % 4 < 4 := Nat.mod_lt _ (by decide)
  generalize n % 4 = m at h
  interval_cases m <;> rfl

/-- C60: meaning of every code of `PmSubState`. -/
theorem PmSubState_values (b : U8) : PmSubState.ofU8 b = PmSubState.spec b := by
  revert b; decide +kernel

/-- C60: the `4` codes of `PmState` decode without panic, to their meanings. -/
theorem PmState_total {ε : Type} (n : Nat) :
    (PmState.ofU8 (BitVec.ofNat 8 (n % 4)) : Res ε PmState) =
      .ok (PmState.spec (BitVec.ofNat 8 (n % 4))) := by
  have h : n % 4 < 4 := Nat.mod_lt _ (by decide)
  generalize n % 4 = m at h
  interval_cases m <;> rfl

/-- C60: meaning of every code of `OperationConditionType`. -/
theorem OperationConditionType_values (b : U8) : OperationConditionType.ofU8 b = OperationConditionType.spec b := by
  revert b; decide +kernel

/-- C60 (the code violates it): thermal is code 111b, the code has it at 011b. -/
theorem PowerRail_thermal_fails :
    PowerRail.ofU8 7 = .Reserved 7 ∧ PowerRail.spec 7 = .Thermal ∧
    PowerRail.ofU8 3 = .Thermal ∧ PowerRail.spec 3 = .Reserved 3 := by decide +kernel

/-- C60: every other code has its meaning. -/
theorem PowerRail_values_partial (b : U8) (h : b ≠ 3 ∧ b ≠ 7) :
    PowerRail.ofU8 b = PowerRail.spec b := by
  revert b; decide +kernel

/-- C60: the meaning the code gives to every code. -/
theorem PowerRail_read (b : U8) : PowerRail.ofU8 b = PowerRail.read b := by
  revert b; decide +kernel

/-- C60: PowerBudgeting needs 12 bytes and never panics, every field is at its position (the power
rail with the code's own value table). -/
theorem PowerBudgeting_bytes (d : Bytes) :
    PowerBudgeting.ofBytes d =
      if 12 ≤ d.length then .ok (PowerBudgeting.spec PowerRail.read d)
      else .err ⟨"Power Budgeting", 12⟩ := by
  bytes_simp [PowerBudgeting.ofBytes]
  bits_simp [PowerBudgeting.spec, DataScale_total, PmState_total, BasePower_values,
    PmSubState_values, OperationConditionType_values, PowerRail_read]

/-- C60: with the architected power rail codes the decoding is correct unless the rail code is 3 or
7. -/
theorem PowerBudgeting_bytes_partial (d : Bytes) (hl : 12 ≤ d.length)
    (h : (fld (rd32 d 4) 18 3 : U8) ≠ 3 ∧ (fld (rd32 d 4) 18 3 : U8) ≠ 7) :
    PowerBudgeting.ofBytes d = .ok (PowerBudgeting.spec PowerRail.spec d) := by
  rw [PowerBudgeting_bytes, if_pos hl]
  simp only [PowerBudgeting.spec, ← PowerRail_read, PowerRail_values_partial _ h]

example : PowerBudgeting.ofBytes [1, 0, 0, 0, 0xf0, 0x25, 5, 0, 1, 0, 0, 0] =
    .ok ⟨1, ⟨.Gt239Le250, .Deci, .Specific 1, .D1, .Idle, .Power3_3v⟩, ⟨true⟩⟩ := by decide +kernel

end Pcics.PowerBudgeting
