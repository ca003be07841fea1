import Verif.Lemmas.Reads
import Verif.Spec.Ext.PrecisionTimeMeasurement
import Verif.Lemmas.Tactics
import Verif.Lemmas.Bv
/- Properties of src/extended_capabilities/precision_time_measurement.rs -/

namespace Pcics.PrecisionTimeMeasurement
open Spec

/-- C59: every field of `PtmCapability` is at its bit position. -/
theorem PtmCapability_layout (w : U32) :
    PtmCapability.ofU32 w = PtmCapability.spec w := by
  bits_simp [PtmCapability.ofU32, PtmCapability.spec]

/-- C59: every field of `PtmControl` is at its bit position. -/
theorem PtmControl_layout (w : U32) :
    PtmControl.ofU32 w = PtmControl.spec w := by
  bits_simp [PtmControl.ofU32, PtmControl.spec]

/-- C59: PrecisionTimeMeasurement needs 8 bytes, every register is at its offset. -/
theorem PrecisionTimeMeasurement_bytes (d : Bytes) :
    PrecisionTimeMeasurement.ofBytes d =
      if 8 ≤ d.length then .ok (PrecisionTimeMeasurement.spec d) else .err ⟨"Precision Time Measurement", 8⟩ := by
  bytes_simp [PrecisionTimeMeasurement.ofBytes, PtmCapability_layout, PtmControl_layout, PrecisionTimeMeasurement.spec]

example : PrecisionTimeMeasurement.ofBytes [0x07, 0x04, 0, 0, 0x03, 0xff, 0, 0] =
    .ok ⟨⟨true, true, true, 4⟩, ⟨true, true, 255⟩⟩ := by decide +kernel

/-! ### C76 -/

/-- C76: `PtmCapability` registers decode to the same value exactly when they agree in bits 0-2,
8-15. -/
theorem PtmCapability_reads (a b : U32) :
    PtmCapability.ofU32 a = PtmCapability.ofU32 b ↔
      a &&& 0x0000ff07#32 = b &&& 0x0000ff07#32 := by
  reads [PtmCapability_layout, PtmCapability.spec, PtmCapability.mk.injEq]

/-- C76: `PtmControl` registers decode to the same value exactly when they agree in bits 0-1,
8-15. -/
theorem PtmControl_reads (a b : U32) :
    PtmControl.ofU32 a = PtmControl.ofU32 b ↔
      a &&& 0x0000ff03#32 = b &&& 0x0000ff03#32 := by
  reads [PtmControl_layout, PtmControl.spec, PtmControl.mk.injEq]

/-- A reserved bit makes no difference to `PtmCapability`, a defined one does. -/
example : PtmCapability.ofU32 0x92edcf45 = PtmCapability.ofU32 0x12edcf45 ∧
    PtmCapability.ofU32 0x92edcf45 ≠ PtmCapability.ofU32 0x92edcb45 :=
  ⟨(PtmCapability_reads _ _).2 (by decide), fun h => absurd ((PtmCapability_reads _ _).1 h) (by decide)⟩

end Pcics.PrecisionTimeMeasurement
