import Verif.Lemmas.Reads
import Verif.Spec.Ext.LatencyToleranceReporting
import Verif.Lemmas.Tactics
import Verif.Lemmas.Bv
/- Properties of src/extended_capabilities/latency_tolerance_reporting.rs -/

namespace Pcics.LatencyToleranceReporting
open Spec

/-- C59: every field of `MaxLatency` is at its bit position. -/
theorem MaxLatency_layout (w : U16) :
    MaxLatency.ofU16 w = MaxLatency.spec w := by
  bits_simp [MaxLatency.ofU16, MaxLatency.spec]

/-- C59: Latency Tolerance Reporting (whose error message claims 8) needs 4 bytes, every register is at its offset. -/
theorem LatencyToleranceReporting_bytes (d : Bytes) :
    LatencyToleranceReporting.ofBytes d =
      if 4 ≤ d.length then .ok (LatencyToleranceReporting.spec d) else .err ⟨"Latency Tolerance Reporting", 8⟩ := by
  bytes_simp [LatencyToleranceReporting.ofBytes, MaxLatency_layout, LatencyToleranceReporting.spec]

example : LatencyToleranceReporting.ofBytes [0x03, 0x10, 0x03, 0x0c] =
    .ok ⟨⟨3, 4⟩, ⟨3, 3⟩⟩ := by decide +kernel

/-- C48: for every register whose scale is permitted (0..=5) the latency is `value * 32 ^ scale` ns,
without lost bits; it is 0 for the not permitted scales. -/
theorem MaxLatency_value (w : U16) :
    (MaxLatency.ofU16 w).value'.toNat =
      if (fld w 10 3 : U8).toNat ≤ 5 then
        (fld w 0 10 : U16).toNat * 32 ^ (fld w 10 3 : U8).toNat
      else 0 := by
  rw [MaxLatency_layout]
  have hv : (fld w 0 10 : U16).toNat < 1024 := by
    simp only [fld, BitVec.toNat_setWidth, BitVec.extractLsb'_toNat]; omega
  split
  · rename_i h
    have : (MaxLatency.spec w).value' = (fld w 0 10 : U16).setWidth 64 <<< (5 * (fld w 10 3 : U8).toNat) :=
      if_pos h
    rw [this]
    exact shl_scale _ _ 10 hv (by omega)
  · rename_i h
    have : (MaxLatency.spec w).value' = 0 := if_neg h
    rw [this]; rfl

example : (MaxLatency.ofU16 0x1003).value' = 3 * 32 ^ 4 := by decide +kernel

/-- C48 (the code violates it): the register is not given back by the conversion to `u16`, which
puts the scale at bits 15:13 although it is decoded from bits 12:10. -/
theorem MaxLatency_roundtrip_fails : ¬ ∀ w : U16, (MaxLatency.ofU16 w).toU16 = w &&& 0x1fff := by
  intro h
  exact absurd (h 0x0400) (by decide +kernel)

/-- C48: what the conversion gives for a register, exactly: the value stays in bits 9:0, the scale
moves to bits 15:13, bits 12:10 are zero. -/
theorem MaxLatency_encoded (w : U16) :
    let e := (MaxLatency.ofU16 w).toU16
    (fld e 0 10 : U16) = fld w 0 10 ∧ (fld e 10 3 : U8) = 0 ∧ (fld e 13 3 : U8) = fld w 10 3 := by
  rw [MaxLatency_layout]
  simp only [MaxLatency.spec, MaxLatency.toU16]
  refine ⟨?_, ?_, ?_⟩ <;> bv_bits []

example : (MaxLatency.ofU16 0x1003).toU16 = 0x8003 := by decide +kernel

/-- C48: the round trip holds exactly for the registers of scale 0. -/
theorem MaxLatency_roundtrip_partial (w : U16) :
    (MaxLatency.ofU16 w).toU16 = w &&& 0x1fff ↔ (fld w 10 3 : U8) = 0 := by
  rw [MaxLatency_layout]
  have hbit : ∀ i, (MaxLatency.toU16 (.spec w)).getLsbD i = (decide (i < 16) &&
      ((!decide (i < 13) && (decide (i - 13 < 3) && w.getLsbD (10 + (i - 13)))) ||
        (decide (i < 10) && w.getLsbD i))) := by
    intro i
    by_cases h16 : i < 16
    · interval_cases i <;> simp [-BitVec.getLsbD_eq_getElem, MaxLatency.spec, MaxLatency.toU16, getLsbD_fld]
    · simp [h16, BitVec.getLsbD_of_ge _ _ (Nat.le_of_not_lt h16)]
  have h3 : (fld w 10 3 : U8) = 0 ↔
      w.getLsbD 10 = false ∧ w.getLsbD 11 = false ∧ w.getLsbD 12 = false := by
    constructor
    · intro h
      have g := fun i => congrArg (fun x : U8 => x.getLsbD i) h
      simp only [getLsbD_fld] at g
      exact ⟨by simpa using g 0, by simpa using g 1, by simpa using g 2⟩
    · rintro ⟨h0, h1, h2⟩
      bv_bits [h0, h1, h2]
  rw [h3]
  constructor
  · intro h
    have g := fun i => congrArg (fun x : U16 => x.getLsbD i) h
    simp only [hbit] at g
    refine ⟨?_, ?_, ?_⟩
    · simpa using (g 10).symm
    · simpa using (g 11).symm
    · simpa using (g 12).symm
  · rintro ⟨h0, h1, h2⟩
    apply BitVec.eq_of_getLsbD_eq
    intro i hi
    rw [hbit]
    interval_cases i <;> simp [-BitVec.getLsbD_eq_getElem, h0, h1, h2]

/-! ### C76 -/

/-- C76: `MaxLatency` registers decode to the same value exactly when they agree in bits 0-12. -/
theorem MaxLatency_reads (a b : U16) :
    MaxLatency.ofU16 a = MaxLatency.ofU16 b ↔
      a &&& 0x1fff#16 = b &&& 0x1fff#16 := by
  reads [MaxLatency_layout, MaxLatency.spec, MaxLatency.mk.injEq]

/-- A reserved bit makes no difference to `MaxLatency`, a defined one does. -/
example : MaxLatency.ofU16 0x076c = MaxLatency.ofU16 0x876c ∧
    MaxLatency.ofU16 0x076c ≠ MaxLatency.ofU16 0x072c :=
  ⟨(MaxLatency_reads _ _).2 (by decide), fun h => absurd ((MaxLatency_reads _ _).1 h) (by decide)⟩

end Pcics.LatencyToleranceReporting
