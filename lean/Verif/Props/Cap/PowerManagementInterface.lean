import Verif.Lemmas.Reads
import Verif.Spec.Cap.PowerManagementInterface
import Verif.Lemmas.Tactics
import Verif.Lemmas.Bv
/- Properties of src/capabilities/power_management_interface.rs -/

namespace Pcics.PowerManagementInterface
open Spec

/-- C30: the `8` codes of `AuxCurrent` decode without panic, to their meanings. -/
theorem AuxCurrent_total {ε : Type} (n : Nat) :
    (AuxCurrent.ofU8 (BitVec.ofNat 8 (n % 8)) : Res ε AuxCurrent) =
      .ok (AuxCurrent.spec (BitVec.ofNat 8 (n % 8))) := by
  have h : n % 8 < 8 := Nat.mod_lt _ (by decide)
  generalize n % 8 = m at h
  interval_cases m <;> rfl

/-- C30: the `4` codes of `PowerState` decode without panic, to their meanings. -/
theorem PowerState_total {ε : Type} (n : Nat) :
    (PowerState.ofU8 (BitVec.ofNat 8 (n % 4)) : Res ε PowerState) =
      .ok (PowerState.spec (BitVec.ofNat 8 (n % 4))) := by
  have h : n % 4 < 4 := Nat.mod_lt _ (by decide)
  generalize n % 4 = m at h
  interval_cases m <;> rfl

/-- C30: meaning of every code of `DataSelect`. -/
theorem DataSelect_values (b : U8) : DataSelect.ofU8 b = DataSelect.spec b := by
  revert b; decide +kernel

/-- C30: the `4` codes of `DataScale` decode without panic, to their meanings. -/
theorem DataScale_total {ε : Type} (n : Nat) :
    (DataScale.ofU8 (BitVec.ofNat 8 (n % 4)) : Res ε DataScale) =
      .ok (DataScale.spec (BitVec.ofNat 8 (n % 4))) := by
  have h : n % 4 < 4 := Nat.mod_lt _ (by decide)
  generalize n % 4 = m at h
  interval_cases m <;> rfl

/-- C30: every field of the PMC register is at its bit position. -/
theorem Capabilities_layout {ε : Type} (w : U16) :
    (Capabilities.ofU16 w : Res ε Capabilities) = .ok (Capabilities.spec w) := by
  bits_simp [Capabilities.ofU16, Capabilities.spec, AuxCurrent_total]

/-- C30: every field of the PMCSR register is at its bit position. -/
theorem Control_layout {ε : Type} (w : U16) :
    (Control.ofU16 w : Res ε Control) = .ok (Control.spec w) := by
  bits_simp [Control.ofU16, Control.spec, PowerState_total, DataScale_total, DataSelect_values]

/-- C30: every field of the bridge extensions is at its bit position. -/
theorem Bridge_layout (w : U8) : Bridge.ofU8 w = Bridge.spec w := by
  bits_simp [Bridge.ofU8, Bridge.spec]

/-- C30: decoding succeeds exactly when 6 bytes are present, never panics, and reads every register
from its offset. -/
theorem PowerManagementInterface_bytes (d : Bytes) :
    PowerManagementInterface.ofBytes d =
      if 6 ≤ d.length then .ok (PowerManagementInterface.spec d)
      else .err ⟨"Power Management Interface", 6⟩ := by
  bytes_simp [PowerManagementInterface.ofBytes, Capabilities_layout, Control_layout, Bridge_layout]

example : PowerManagementInterface.ofBytes [0xc3, 0xff, 0x08, 0x20, 0x40, 0x05] =
    .ok {
      capabilities := ⟨3, false, false, false, .MaxCurrent375mA, true, true,
        ⟨true, true, true, true, true⟩⟩
      control := ⟨.D0, true, false, .PowerConsumedD0, .Tenth, false⟩
      bridge := ⟨0, true, false⟩
      data := 5 } := by decide +kernel

/-- C30: the data accessor is empty exactly when the data register is zero, and otherwise reports
the register with the select and scale fields of PMCSR. -/
theorem PowerManagementInterface_data (d : Bytes) (s : PowerManagementInterface)
    (h : PowerManagementInterface.ofBytes d = .ok s) :
    s.getData = if byteAt d 5 = 0 then none
      else some ⟨byteAt d 5, .spec (fld (rd16 d 2) 9 4), .spec (fld (rd16 d 2) 13 2)⟩ := by
  rw [PowerManagementInterface_bytes] at h
  split at h <;> simp only [Res.ok.injEq, reduceCtorEq] at h
  subst h
  rfl

/-- C56: data select round trip. -/
theorem DataSelect_roundtrip (b : U8) : (DataSelect.ofU8 b).toU8 = b := by
  revert b; decide +kernel

/-! ### C76 -/

theorem AuxCurrent_bits3 {n : Nat} (a b : BitVec n) (lo : Nat) :
    AuxCurrent.spec (fld a lo 3) = AuxCurrent.spec (fld b lo 3) ↔
      ∀ i, i < 3 → a.getLsbD (lo + i) = b.getLsbD (lo + i) :=
  code_eq_iff _ 3 (by decide) (by decide +kernel) a b lo

theorem PowerState_bits2 {n : Nat} (a b : BitVec n) (lo : Nat) :
    PowerState.spec (fld a lo 2) = PowerState.spec (fld b lo 2) ↔
      ∀ i, i < 2 → a.getLsbD (lo + i) = b.getLsbD (lo + i) :=
  code_eq_iff _ 2 (by decide) (by decide +kernel) a b lo

theorem DataSelect_bits4 {n : Nat} (a b : BitVec n) (lo : Nat) :
    DataSelect.spec (fld a lo 4) = DataSelect.spec (fld b lo 4) ↔
      ∀ i, i < 4 → a.getLsbD (lo + i) = b.getLsbD (lo + i) :=
  code_eq_iff _ 4 (by decide) (by decide +kernel) a b lo

theorem DataScale_bits2 {n : Nat} (a b : BitVec n) (lo : Nat) :
    DataScale.spec (fld a lo 2) = DataScale.spec (fld b lo 2) ↔
      ∀ i, i < 2 → a.getLsbD (lo + i) = b.getLsbD (lo + i) :=
  code_eq_iff _ 2 (by decide) (by decide +kernel) a b lo

/-- C76: `Capabilities` registers decode to the same value only if they are equal. -/
theorem Capabilities_reads {ε : Type} (a b : U16) :
    (Capabilities.ofU16 a : Res ε Capabilities) = Capabilities.ofU16 b ↔
      a = b := by
  rw [eq_iff_bits a b]
  reads [Capabilities_layout, Capabilities.spec, Capabilities.mk.injEq, AuxCurrent_bits3,
    PmeSupport.mk.injEq]

/-- C76: `Control` registers decode to the same value exactly when they agree in bits 0-1, 3,
8-15. -/
theorem Control_reads {ε : Type} (a b : U16) :
    (Control.ofU16 a : Res ε Control) = Control.ofU16 b ↔
      a &&& 0xff0b#16 = b &&& 0xff0b#16 := by
  reads [Control_layout, Control.spec, Control.mk.injEq, PowerState_bits2, DataSelect_bits4,
    DataScale_bits2]

/-- C76: `Bridge` registers decode to the same value only if they are equal. -/
theorem Bridge_reads (a b : U8) :
    Bridge.ofU8 a = Bridge.ofU8 b ↔
      a = b := by
  rw [eq_iff_bits a b]
  reads [Bridge_layout, Bridge.spec, Bridge.mk.injEq]

/-- A reserved bit makes no difference to `Control`, a defined one does. -/
example : (Control.ofU16 0x9f76 : Res Empty _) = Control.ofU16 0x9ff6 ∧
    (Control.ofU16 0x9f76 : Res Empty _) ≠ Control.ofU16 0x9b76 :=
  ⟨(Control_reads _ _).2 (by decide), fun h => absurd ((Control_reads _ _).1 h) (by decide)⟩

end Pcics.PowerManagementInterface
