import Verif.Lemmas.Reads
import Verif.Spec.Ext.LnRequester
import Verif.Lemmas.Tactics
import Verif.Lemmas.Bv
/- Properties of src/extended_capabilities/ln_requester.rs -/

namespace Pcics.LnRequester
open Spec

/-- C59: every field of `LnrCapability` is at its bit position. -/
theorem LnrCapability_layout (w : U16) :
    LnrCapability.ofU16 w = LnrCapability.spec w := by
  bits_simp [LnrCapability.ofU16, LnrCapability.spec]

/-- C59: every field of `LnrControl` is at its bit position. -/
theorem LnrControl_layout (w : U16) :
    LnrControl.ofU16 w = LnrControl.spec w := by
  bits_simp [LnrControl.ofU16, LnrControl.spec]

/-- C59: LnRequester needs 8 bytes, every register is at its offset. -/
theorem LnRequester_bytes (d : Bytes) :
    LnRequester.ofBytes d =
      if 8 ≤ d.length then .ok (LnRequester.spec d) else .err ⟨"LN Requester", 8⟩ := by
  by_cases h : 8 ≤ d.length <;> bytes_len [LnRequester.ofBytes, LnRequester.ofArray, LnRequester.SIZE, LnrCapability_layout, LnrControl_layout, LnRequester.spec]

example : LnRequester.ofBytes [0x1c, 0, 1, 0, 0x02, 0x1f, 0x01, 0x05] =
    .ok ⟨⟨false, true, 31⟩, ⟨true, false, 5⟩⟩ := by decide +kernel

/-! ### C76 -/

/-- C76: `LnrCapability` registers decode to the same value exactly when they agree in bits 0-1,
8-12. -/
theorem LnrCapability_reads (a b : U16) :
    LnrCapability.ofU16 a = LnrCapability.ofU16 b ↔
      a &&& 0x1f03#16 = b &&& 0x1f03#16 := by
  reads [LnrCapability_layout, LnrCapability.spec, LnrCapability.mk.injEq]

/-- C76: `LnrControl` registers decode to the same value exactly when they agree in bits 0-1,
8-12. -/
theorem LnrControl_reads (a b : U16) :
    LnrControl.ofU16 a = LnrControl.ofU16 b ↔
      a &&& 0x1f03#16 = b &&& 0x1f03#16 := by
  reads [LnrControl_layout, LnrControl.spec, LnrControl.mk.injEq]

/-- A reserved bit makes no difference to `LnrCapability`, a defined one does. -/
example : LnrCapability.ofU16 0x7733 = LnrCapability.ofU16 0xf733 ∧
    LnrCapability.ofU16 0x7733 ≠ LnrCapability.ofU16 0x7533 :=
  ⟨(LnrCapability_reads _ _).2 (by decide), fun h => absurd ((LnrCapability_reads _ _).1 h) (by decide)⟩

end Pcics.LnRequester
