import Verif.Lemmas.Reads
import Verif.Spec.Ext.DynamicPowerAllocation
import Verif.Lemmas.Tactics
import Verif.Lemmas.Bv
/- Properties of src/extended_capabilities/dynamic_power_allocation.rs -/

namespace Pcics.DynamicPowerAllocation
open Spec

/-- C61: the `4` codes of `TransitionLatencyUnit` decode without panic, to their meanings. -/
theorem TransitionLatencyUnit_total {ε : Type} (n : Nat) :
    (TransitionLatencyUnit.ofU8 (BitVec.ofNat 8 (n % 4)) : Res ε TransitionLatencyUnit) =
      .ok (TransitionLatencyUnit.spec (BitVec.ofNat 8 (n % 4))) := by
  have h : n % 4 < 4 := Nat.mod_lt _ (by decide)
  generalize n % 4 = m at h
  interval_cases m <;> rfl

/-- C61: the `4` codes of `PowerAllocationScale` decode without panic, to their meanings. -/
theorem PowerAllocationScale_total {ε : Type} (n : Nat) :
    (PowerAllocationScale.ofU8 (BitVec.ofNat 8 (n % 4)) : Res ε PowerAllocationScale) =
      .ok (PowerAllocationScale.spec (BitVec.ofNat 8 (n % 4))) := by
  have h : n % 4 < 4 := Nat.mod_lt _ (by decide)
  generalize n % 4 = m at h
  interval_cases m <;> rfl

/-- C61: every field of `DpaCapability` is at its bit position. -/
theorem DpaCapability_layout {ε : Type} (w : U32) :
    (DpaCapability.ofU32 w : Res ε DpaCapability) = .ok (DpaCapability.spec w) := by
  bits_simp [DpaCapability.ofU32, DpaCapability.spec, PowerAllocationScale_total, TransitionLatencyUnit_total]

/-- C61: every field of `DpaStatus` is at its bit position. -/
theorem DpaStatus_layout (w : U16) :
    DpaStatus.ofU16 w = DpaStatus.spec w := by
  bits_simp [DpaStatus.ofU16, DpaStatus.spec]

/-- C61: every field of `DpaControl` is at its bit position. -/
theorem DpaControl_layout (w : U16) :
    DpaControl.ofU16 w = DpaControl.spec w := by
  bits_simp [DpaControl.ofU16, DpaControl.spec]

/-- C61: the structure is decoded exactly when the 16 fixed bytes and one byte per substate are there;
every field comes from its offset. -/
theorem DynamicPowerAllocation_bytes (d : Bytes) :
    DynamicPowerAllocation.ofBytes d =
      if d.length < 16 then .err .Mandatory
      else if d.length < 16 + substates d then
        .err (.DpaAllocationArray (substates d - 1) (d.length - 16))
      else .ok (DynamicPowerAllocation.spec d) := by
  by_cases h4 : 4 ≤ d.length
  case neg =>
    have h : d.length < 16 := by omega
    rw [if_pos h]
    bytes_len [DynamicPowerAllocation.ofBytes, Option.getD_none, List.length_nil]
  by_cases h : d.length < 16
  · rw [if_pos h]
    bytes_len [DynamicPowerAllocation.ofBytes, Option.getD_some]
  rw [if_neg h]
  bytes_len [DynamicPowerAllocation.ofBytes, Option.getD_some, DpaCapability_layout,
    DpaControl_layout, DpaStatus_layout]
  have e : (DpaCapability.spec (rd32 d 4)).substate_max.toNat = substates d - 1 := rfl
  have e' : substates d - 1 + 1 = substates d := rfl
  rw [e, e']
  by_cases hl : d.length < 16 + substates d
  · have h' : ¬ substates d ≤ d.length - 16 := by omega
    simp only [h', hl, if_true, if_false]
  · have h' : substates d ≤ d.length - 16 := by omega
    simp only [h', hl, if_true, if_false]
    rfl

/-- C61 (the code violates it): the error for a short power allocation array never names the number
of entries that are needed; it is one too small. -/
theorem DynamicPowerAllocation_expected_fails (d : Bytes) (expected found : Nat)
    (h : DynamicPowerAllocation.ofBytes d = .err (.DpaAllocationArray expected found)) :
    expected + 1 = substates d ∧ found = d.length - 16 := by
  rw [DynamicPowerAllocation_bytes] at h
  split at h
  · cases h
  split at h
  · simp only [Res.err.injEq, DynamicPowerAllocationError.DpaAllocationArray.injEq] at h
    rw [← h.1, ← h.2]
    exact ⟨rfl, rfl⟩
  · cases h

example : ∃ s, DynamicPowerAllocation.ofBytes
      [0x0c, 0, 1, 0, 3, 0x22, 0x55, 0xaa, 0, 0x11, 0x22, 0x33, 3, 1, 2, 0, 0, 0x11, 0x22, 0x33,
        0x44] = .ok s ∧
    s.dpa_capability = ⟨3, .Unit100ms, .Mul0_1, 0x55, 0xaa⟩ ∧ s.dpa_status = ⟨3, true⟩ ∧
    s.dpa_control = ⟨2⟩ ∧ s.dpa_power_allocation_array = ⟨[0, 0x11, 0x22, 0x33]⟩ := by
  refine ⟨_, rfl, ?_⟩; decide +kernel

/-- Three of four entries: the error says that three are expected and three were found. -/
example : DynamicPowerAllocation.ofBytes
      [0x0c, 0, 1, 0, 3, 0x22, 0x55, 0xaa, 0, 0x11, 0x22, 0x33, 3, 1, 2, 0, 0, 0x11, 0x22] =
    .err (.DpaAllocationArray 3 3) := by decide +kernel

/-! ### C76 -/

theorem TransitionLatencyUnit_bits2 {n : Nat} (a b : BitVec n) (lo : Nat) :
    TransitionLatencyUnit.spec (fld a lo 2) = TransitionLatencyUnit.spec (fld b lo 2) ↔
      ∀ i, i < 2 → a.getLsbD (lo + i) = b.getLsbD (lo + i) :=
  code_eq_iff _ 2 (by decide) (by decide +kernel) a b lo

theorem PowerAllocationScale_bits2 {n : Nat} (a b : BitVec n) (lo : Nat) :
    PowerAllocationScale.spec (fld a lo 2) = PowerAllocationScale.spec (fld b lo 2) ↔
      ∀ i, i < 2 → a.getLsbD (lo + i) = b.getLsbD (lo + i) :=
  code_eq_iff _ 2 (by decide) (by decide +kernel) a b lo

/-- C76: `DpaCapability` registers decode to the same value exactly when they agree in bits 0-4,
8-9, 12-13, 16-31. -/
theorem DpaCapability_reads {ε : Type} (a b : U32) :
    (DpaCapability.ofU32 a : Res ε DpaCapability) = DpaCapability.ofU32 b ↔
      a &&& 0xffff331f#32 = b &&& 0xffff331f#32 := by
  reads [DpaCapability_layout, DpaCapability.spec, DpaCapability.mk.injEq,
    TransitionLatencyUnit_bits2, PowerAllocationScale_bits2]

/-- C76: `DpaStatus` registers decode to the same value exactly when they agree in bits 0-4, 8. -/
theorem DpaStatus_reads (a b : U16) :
    DpaStatus.ofU16 a = DpaStatus.ofU16 b ↔
      a &&& 0x011f#16 = b &&& 0x011f#16 := by
  reads [DpaStatus_layout, DpaStatus.spec, DpaStatus.mk.injEq]

/-- C76: `DpaControl` registers decode to the same value exactly when they agree in bits 0-4. -/
theorem DpaControl_reads (a b : U16) :
    DpaControl.ofU16 a = DpaControl.ofU16 b ↔
      a &&& 0x001f#16 = b &&& 0x001f#16 := by
  reads [DpaControl_layout, DpaControl.spec, DpaControl.mk.injEq]

/-- A reserved bit makes no difference to `DpaCapability`, a defined one does. -/
example : (DpaCapability.ofU32 0x8b33e968 : Res Empty _) = DpaCapability.ofU32 0x8b336968 ∧
    (DpaCapability.ofU32 0x8b33e968 : Res Empty _) ≠ DpaCapability.ofU32 0x8b3be968 :=
  ⟨(DpaCapability_reads _ _).2 (by decide), fun h => absurd ((DpaCapability_reads _ _).1 h) (by decide)⟩

end Pcics.DynamicPowerAllocation
