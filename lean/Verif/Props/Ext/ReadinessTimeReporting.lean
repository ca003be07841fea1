import Verif.Lemmas.Reads
import Verif.Spec.Ext.ReadinessTimeReporting
import Verif.Lemmas.Tactics
import Verif.Lemmas.Bv
/- Properties of src/extended_capabilities/readiness_time_reporting.rs -/

namespace Pcics.ReadinessTimeReporting
open Spec

/-- C59: every field of `ReadinessTime` is at its bit position. -/
theorem ReadinessTime_layout (w : U16) :
    ReadinessTime.ofU16 w = ReadinessTime.spec w := by
  bits_simp [ReadinessTime.ofU16, ReadinessTime.spec]

/-- C59: ReadinessTimeReporting needs 12 bytes (with header), every field is at its position. -/
theorem ReadinessTimeReporting_bytes (d : Bytes) :
    ReadinessTimeReporting.ofBytes d =
      if 12 ≤ d.length then .ok (ReadinessTimeReporting.spec d)
      else .err ⟨"Readiness Time Reporting", 12⟩ := by
  unfold ReadinessTimeReporting.ofBytes
  by_cases h4 : 4 ≤ d.length
  · by_cases h : 12 ≤ d.length
    · bytes_len [Option.getD_some, ReadinessTime_layout]
      bits_simp [ReadinessTime.spec, ReadinessTimeReporting.spec]
      generalize rd32 d 4 = v
      generalize rd32 d 8 = w
      refine ⟨?_, ?_, ?_, ?_⟩ <;> congr 1 <;> omega
    · bytes_len [Option.getD_some]
  · have h : ¬ 12 ≤ d.length := by omega
    bytes_len [Option.getD_none, List.length_nil]

example : ReadinessTimeReporting.ofBytes [0x22, 0, 1, 0, 0x34, 0x12, 0, 0x80, 0xff, 0xff, 0, 0] =
    .ok ⟨⟨0x34, 1⟩, ⟨1, 0⟩, true, ⟨0x1ff, 7⟩, ⟨0xf, 0⟩⟩ := by decide +kernel

/-- C48: the time of every decoded register field is `value * 32 ^ scale`, computed without panic or
lost bits. -/
theorem ReadinessTime_actual {ε : Type} (w : U16) :
    ∃ v, ((ReadinessTime.ofU16 w).actualTimeValue : Res ε U64) = .ok v ∧
      v.toNat = (fld w 0 9 : U16).toNat * 32 ^ (fld w 9 3 : U8).toNat := by
  rw [ReadinessTime_layout]
  have hv : (fld w 0 9 : U16).toNat < 512 := by
    simp only [fld, BitVec.toNat_setWidth, BitVec.extractLsb'_toNat]; omega
  have hs : (fld w 9 3 : U8).toNat < 8 := by
    simp only [fld, BitVec.toNat_setWidth, BitVec.extractLsb'_toNat]; omega
  have h : ((ReadinessTime.spec w).actualTimeValue : Res ε U64) =
      .ok ((fld w 0 9 : U16).setWidth 64 <<< ((fld w 9 3 : U8).toNat * 5)) :=
    if_pos (show (fld w 9 3 : U8).toNat * 5 < 256 ∧ (fld w 9 3 : U8).toNat * 5 < 64 by omega)
  refine ⟨_, h, ?_⟩
  rw [Nat.mul_comm _ 5]
  exact shl_scale _ _ 9 hv (by omega)

example : ((ReadinessTime.ofU16 0xfff).actualTimeValue : Res Unit U64) = .ok (0x1ff * 2 ^ 35) := by
  decide +kernel

/-- C48: but a hand-made scale of 13 or more panics. -/
theorem ReadinessTime_actual_panics {ε : Type} (t : ReadinessTime) :
    (t.actualTimeValue : Res ε U64) = .panic ↔ 13 ≤ t.scale.toNat := by
  unfold ReadinessTime.actualTimeValue
  split
  · simp; omega
  · simp; omega

/-! ### C76 -/

/-- C76: `ReadinessTime` registers decode to the same value exactly when they agree in bits 0-11.
-/
theorem ReadinessTime_reads (a b : U16) :
    ReadinessTime.ofU16 a = ReadinessTime.ofU16 b ↔
      a &&& 0x0fff#16 = b &&& 0x0fff#16 := by
  reads [ReadinessTime_layout, ReadinessTime.spec, ReadinessTime.mk.injEq]

/-- A reserved bit makes no difference to `ReadinessTime`, a defined one does. -/
example : ReadinessTime.ofU16 0xd721 = ReadinessTime.ofU16 0x5721 ∧
    ReadinessTime.ofU16 0xd721 ≠ ReadinessTime.ofU16 0xd761 :=
  ⟨(ReadinessTime_reads _ _).2 (by decide), fun h => absurd ((ReadinessTime_reads _ _).1 h) (by decide)⟩

end Pcics.ReadinessTimeReporting
