import Verif.Spec.Ext.L1PmSubstates
import Verif.Lemmas.Tactics
import Verif.Lemmas.Bv
/- Properties of src/extended_capabilities/l1_pm_substates.rs -/

namespace Pcics.L1PmSubstates
open Spec

/-- C49: meaning of every code of `PortTPowerOnScale`. -/
theorem PortTPowerOnScale_values (b : U8) : PortTPowerOnScale.ofU8 b = PortTPowerOnScale.spec b := by
  revert b; decide +kernel

/-- C49: L1 PM Substates needs 12 bytes and has every field at its position. -/
theorem L1PmSubstates_bytes (d : Bytes) :
    L1PmSubstates.ofBytes d =
      if 12 ≤ d.length then .ok (L1PmSubstates.spec d) else .err ⟨"L1 PM Substates", 12⟩ := by
  by_cases h : 12 ≤ d.length
  · bytes_len [L1PmSubstates.ofBytes]
    bits_simp [L1PmSubstates.spec, PortTPowerOnScale_values]
  · bytes_len [L1PmSubstates.ofBytes]

theorem scale_toU8 (b : U8) (h : b.toNat < 4) : (PortTPowerOnScale.spec b).toU8 = b := by
  revert b; decide +kernel

/-- C49, C56: T_POWER_ON scale codes survive the round trip. -/
theorem PortTPowerOnScale_roundtrip (b : U8) (h : b.toNat < 4) :
    (PortTPowerOnScale.ofU8 b).toU8 = b := by
  rw [PortTPowerOnScale_values, scale_toU8 b h]

theorem fld2_lt (w : U32) (lo : Nat) : (fld w lo 2 : U8).toNat < 4 := by
  simp only [fld, BitVec.toNat_setWidth, BitVec.extractLsb'_toNat]; omega

/-- C49: decoding and encoding a register keeps its defined bits and clears the reserved ones:
capabilities 7:5, 18, 31:24; control 1 7:4, 28:26; control 2 2, 31:8. -/
theorem L1PmSubstates_roundtrip (d : Bytes) (x : L1PmSubstates)
    (h : L1PmSubstates.ofBytes d = .ok x) :
    x.l1_pm_substates_capabilities.toU32 = rd32 d 0 &&& 0x00fbff1f ∧
    x.l1_pm_substates_control_1.toU32 = rd32 d 4 &&& 0xe3ffff0f ∧
    x.l1_pm_substates_control_2.toU32 = rd32 d 8 &&& 0x000000fb := by
  rw [L1PmSubstates_bytes] at h
  split at h
  · cases h
    generalize h0 : rd32 d 0 = a
    generalize h1 : rd32 d 4 = b
    generalize h2 : rd32 d 8 = c
    refine ⟨?_, ?_, ?_⟩
    · simp only [L1PmSubstates.spec, L1PmSubstatesCapabilities.toU32, PortTPowerOn.toU8, h0,
        scale_toU8 _ (fld2_lt a 16)]
      bv_bits [getLsbD_u32le]
    · simp only [L1PmSubstates.spec, L1PmSubstatesControl1.toU32, h1,
        LatencyToleranceReporting.MaxLatency.toU16]
      bv_bits [getLsbD_u32le]
    · simp only [L1PmSubstates.spec, L1PmSubstatesControl2.toU32, PortTPowerOn.toU8, h2,
        scale_toU8 _ (fld2_lt c 0)]
      bv_bits [getLsbD_u32le]
  · cases h

/-- C49: T_POWER_ON in microseconds: the value times 2, 10 or 100; none for the reserved scale. -/
theorem PortTPowerOn_value (v s : U8) :
    (PortTPowerOn.mk v (.ofU8 s)).value' =
      pick s [(0, some (v.toNat * 2)), (1, some (v.toNat * 10)), (2, some (v.toNat * 100))] none := by
  rw [PortTPowerOnScale_values]
  unfold PortTPowerOnScale.spec
  simp only [pick]
  split
  · rfl
  split
  · rfl
  split <;> rfl

example : (L1PmSubstates.ofBytes [0x1f, 0x0a, 0x2a, 0xff, 0, 0, 0, 0, 0x2f, 1, 2, 3]).map'
    (fun x => (x.l1_pm_substates_capabilities.toU32, x.l1_pm_substates_control_2.toU32)) =
    .ok (0x002a0a1f, 0x2b) := by decide +kernel

end Pcics.L1PmSubstates
