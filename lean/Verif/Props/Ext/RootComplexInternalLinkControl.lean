import Verif.Lemmas.Reads
import Verif.Spec.Ext.RootComplexInternalLinkControl
import Verif.Props.Cap.PciExpress
import Verif.Lemmas.Bv
/- Properties of src/extended_capabilities/root_complex_internal_link_control.rs -/

namespace Pcics.RootComplexInternalLinkControl
open Spec PciExpress

/-- C59: every field of `RootComplexLinkCapabilities` is at its bit position. -/
theorem RootComplexLinkCapabilities_layout {ε : Type} (w : U32) :
    (RootComplexLinkCapabilities.ofU32 w : Res ε RootComplexLinkCapabilities) = .ok (RootComplexLinkCapabilities.spec w) := by
  bits_simp [RootComplexLinkCapabilities.ofU32, RootComplexLinkCapabilities.spec,
    ActiveStatePowerManagement_total, L0sExitLatency_total, L1ExitLatency_total,
    LinkSpeed_values, LinkWidth_values, SupportedLinkSpeedsVector_layout]

/-- C59: every field of `RootComplexLinkControl` is at its bit position. -/
theorem RootComplexLinkControl_layout {ε : Type} (w : U16) :
    (RootComplexLinkControl.ofU16 w : Res ε RootComplexLinkControl) = .ok (RootComplexLinkControl.spec w) := by
  bits_simp [RootComplexLinkControl.ofU16, RootComplexLinkControl.spec,
    ActiveStatePowerManagement_total]

/-- C59: every field of `RootComplexLinkStatus` is at its bit position. -/
theorem RootComplexLinkStatus_layout (w : U16) :
    RootComplexLinkStatus.ofU16 w = RootComplexLinkStatus.spec w := by
  bits_simp [RootComplexLinkStatus.ofU16, RootComplexLinkStatus.spec, LinkSpeed_values,
    LinkWidth_values]

/-- C59: RootComplexInternalLinkControl needs 8 bytes, every register is at its offset. -/
theorem RootComplexInternalLinkControl_bytes (d : Bytes) :
    RootComplexInternalLinkControl.ofBytes d =
      if 8 ≤ d.length then .ok (RootComplexInternalLinkControl.spec d) else .err ⟨"Root Complex Internal Link Control", 8⟩ := by
  by_cases h : 8 ≤ d.length <;> bytes_len [RootComplexInternalLinkControl.ofBytes, RootComplexInternalLinkControl.ofArray, RootComplexInternalLinkControl.SIZE, RootComplexLinkCapabilities_layout, RootComplexLinkControl_layout, RootComplexLinkStatus_layout, RootComplexInternalLinkControl.spec]

example : (RootComplexInternalLinkControl.ofBytes [0x11, 0x54, 0x2e, 0x02, 0x80, 0, 0x22, 0]).map'
    (·.root_complex_link_status.negotiated_link_width) = .ok .X2 := by decide +kernel

/-! ### C76 -/

/-- C76: `RootComplexLinkCapabilities` registers decode to the same value exactly when they agree
in bits 0-24. -/
theorem RootComplexLinkCapabilities_reads {ε : Type} (a b : U32) :
    (RootComplexLinkCapabilities.ofU32 a : Res ε RootComplexLinkCapabilities) = RootComplexLinkCapabilities.ofU32 b ↔
      a &&& 0x01ffffff#32 = b &&& 0x01ffffff#32 := by
  reads [RootComplexLinkCapabilities_layout, RootComplexLinkCapabilities.spec,
    RootComplexLinkCapabilities.mk.injEq, PciExpress.LinkSpeed_bits4, PciExpress.LinkWidth_bits6,
    PciExpress.ActiveStatePowerManagement_bits2, PciExpress.L0sExitLatency_bits3,
    PciExpress.L1ExitLatency_bits3, PciExpress.SupportedLinkSpeedsVector.spec,
    PciExpress.SupportedLinkSpeedsVector.mk.injEq]

/-- C76: `RootComplexLinkControl` registers decode to the same value exactly when they agree in
bits 0-1, 7. -/
theorem RootComplexLinkControl_reads {ε : Type} (a b : U16) :
    (RootComplexLinkControl.ofU16 a : Res ε RootComplexLinkControl) = RootComplexLinkControl.ofU16 b ↔
      a &&& 0x0083#16 = b &&& 0x0083#16 := by
  reads [RootComplexLinkControl_layout, RootComplexLinkControl.spec,
    RootComplexLinkControl.mk.injEq, PciExpress.ActiveStatePowerManagement_bits2]

/-- C76: `RootComplexLinkStatus` registers decode to the same value exactly when they agree in
bits 0-9. -/
theorem RootComplexLinkStatus_reads (a b : U16) :
    RootComplexLinkStatus.ofU16 a = RootComplexLinkStatus.ofU16 b ↔
      a &&& 0x03ff#16 = b &&& 0x03ff#16 := by
  reads [RootComplexLinkStatus_layout, RootComplexLinkStatus.spec, RootComplexLinkStatus.mk.injEq,
    PciExpress.LinkSpeed_bits4, PciExpress.LinkWidth_bits6]

/-- A reserved bit makes no difference to `RootComplexLinkCapabilities`, a defined one does. -/
example : (RootComplexLinkCapabilities.ofU32 0x0d464138 : Res Empty _) = RootComplexLinkCapabilities.ofU32 0x8d464138 ∧
    (RootComplexLinkCapabilities.ofU32 0x0d464138 : Res Empty _) ≠ RootComplexLinkCapabilities.ofU32 0x0d465138 :=
  ⟨(RootComplexLinkCapabilities_reads _ _).2 (by decide), fun h => absurd ((RootComplexLinkCapabilities_reads _ _).1 h) (by decide)⟩

end Pcics.RootComplexInternalLinkControl
