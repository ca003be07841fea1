import Verif.Lemmas.Reads
import Verif.Spec.Ext.AlternativeRoutingIdInterpolation
import Verif.Lemmas.Tactics
import Verif.Lemmas.Bv
/- Properties of src/extended_capabilities/alternative_routing_id_interpolation.rs -/

namespace Pcics.AlternativeRoutingIdInterpolation
open Spec

/-- C59: every field of `AriCapability` is at its bit position. -/
theorem AriCapability_layout (w : U16) :
    AriCapability.ofU16 w = AriCapability.spec w := by
  bits_simp [AriCapability.ofU16, AriCapability.spec]

/-- C59: every field of `AriControl` is at its bit position. -/
theorem AriControl_layout (w : U16) :
    AriControl.ofU16 w = AriControl.spec w := by
  bits_simp [AriControl.ofU16, AriControl.spec]

/-- C59: AlternativeRoutingIdInterpretation needs 4 bytes, every register is at its offset. -/
theorem AlternativeRoutingIdInterpretation_bytes (d : Bytes) :
    AlternativeRoutingIdInterpretation.ofBytes d =
      if 4 ≤ d.length then .ok (AlternativeRoutingIdInterpretation.spec d) else .err ⟨"Alternative Routing-ID Interpretation", 4⟩ := by
  bytes_simp [AlternativeRoutingIdInterpretation.ofBytes, AriCapability_layout, AriControl_layout, AlternativeRoutingIdInterpretation.spec]

example : AlternativeRoutingIdInterpretation.ofBytes [0x02, 0x07, 0x31, 0x00] =
    .ok ⟨⟨false, true, 7⟩, ⟨true, false, 3⟩⟩ := by decide +kernel

/-! ### C76 -/

/-- C76: `AriCapability` registers decode to the same value exactly when they agree in bits 0-1,
8-15. -/
theorem AriCapability_reads (a b : U16) :
    AriCapability.ofU16 a = AriCapability.ofU16 b ↔
      a &&& 0xff03#16 = b &&& 0xff03#16 := by
  reads [AriCapability_layout, AriCapability.spec, AriCapability.mk.injEq]

/-- C76: `AriControl` registers decode to the same value exactly when they agree in bits 0-1, 4-6.
-/
theorem AriControl_reads (a b : U16) :
    AriControl.ofU16 a = AriControl.ofU16 b ↔
      a &&& 0x0073#16 = b &&& 0x0073#16 := by
  reads [AriControl_layout, AriControl.spec, AriControl.mk.injEq]

/-- A reserved bit makes no difference to `AriCapability`, a defined one does. -/
example : AriCapability.ofU16 0xa6eb = AriCapability.ofU16 0xa66b ∧
    AriCapability.ofU16 0xa6eb ≠ AriCapability.ofU16 0xaeeb :=
  ⟨(AriCapability_reads _ _).2 (by decide), fun h => absurd ((AriCapability_reads _ _).1 h) (by decide)⟩

end Pcics.AlternativeRoutingIdInterpolation
