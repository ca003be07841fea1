import Verif.Lemmas.Reads
import Verif.Spec.Ext.RootComplexRegisterBlockHeader
import Verif.Lemmas.Tactics
import Verif.Lemmas.Bv
/- Properties of src/extended_capabilities/root_complex_register_block_header.rs -/

namespace Pcics.RootComplexRegisterBlockHeader
open Spec

/-- C59: every field of `RcrbCapabilities` is at its bit position. -/
theorem RcrbCapabilities_layout (w : U32) :
    RcrbCapabilities.ofU32 w = RcrbCapabilities.spec w := by
  bits_simp [RcrbCapabilities.ofU32, RcrbCapabilities.spec]

/-- C59: every field of `RcrbControl` is at its bit position. -/
theorem RcrbControl_layout (w : U32) :
    RcrbControl.ofU32 w = RcrbControl.spec w := by
  bits_simp [RcrbControl.ofU32, RcrbControl.spec]

/-- C59: RootComplexRegisterBlockHeader needs 20 bytes, every register is at its offset. -/
theorem RootComplexRegisterBlockHeader_bytes (d : Bytes) :
    RootComplexRegisterBlockHeader.ofBytes d =
      if 20 ≤ d.length then .ok (RootComplexRegisterBlockHeader.spec d) else .err ⟨"RCRB Header", 20⟩ := by
  by_cases h : 20 ≤ d.length <;> bytes_len [RootComplexRegisterBlockHeader.ofBytes, RootComplexRegisterBlockHeader.ofArray, RootComplexRegisterBlockHeader.SIZE, RcrbCapabilities_layout, RcrbControl_layout, RootComplexRegisterBlockHeader.spec]

example : RootComplexRegisterBlockHeader.ofBytes
    [0x0a, 0, 1, 0, 0x22, 0x11, 0x44, 0x33, 1, 0, 0, 0, 0, 0, 0, 0, 0, 0, 0, 0] =
    .ok ⟨0x1122, 0x3344, ⟨true⟩, ⟨false⟩⟩ := by decide +kernel

/-! ### C76 -/

/-- C76: `RcrbCapabilities` registers decode to the same value exactly when they agree in bits 0.
-/
theorem RcrbCapabilities_reads (a b : U32) :
    RcrbCapabilities.ofU32 a = RcrbCapabilities.ofU32 b ↔
      a &&& 0x00000001#32 = b &&& 0x00000001#32 := by
  reads [RcrbCapabilities_layout, RcrbCapabilities.spec, RcrbCapabilities.mk.injEq]

/-- C76: `RcrbControl` registers decode to the same value exactly when they agree in bits 0. -/
theorem RcrbControl_reads (a b : U32) :
    RcrbControl.ofU32 a = RcrbControl.ofU32 b ↔
      a &&& 0x00000001#32 = b &&& 0x00000001#32 := by
  reads [RcrbControl_layout, RcrbControl.spec, RcrbControl.mk.injEq]

/-- A reserved bit makes no difference to `RcrbCapabilities`, a defined one does. -/
example : RcrbCapabilities.ofU32 0x1a1afe87 = RcrbCapabilities.ofU32 0x9a1afe87 ∧
    RcrbCapabilities.ofU32 0x1a1afe87 ≠ RcrbCapabilities.ofU32 0x1a1afe86 :=
  ⟨(RcrbCapabilities_reads _ _).2 (by decide), fun h => absurd ((RcrbCapabilities_reads _ _).1 h) (by decide)⟩

end Pcics.RootComplexRegisterBlockHeader
