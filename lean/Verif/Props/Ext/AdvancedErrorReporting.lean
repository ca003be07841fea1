import Verif.Lemmas.Reads
import Verif.Spec.Ext.AdvancedErrorReporting
import Verif.Lemmas.Tactics
import Verif.Lemmas.Bv
/- Properties of src/extended_capabilities/advanced_error_reporting.rs -/

namespace Pcics.AdvancedErrorReporting
open Spec

/-- C42: every field of `UncorrectableError` is at its bit position. -/
theorem UncorrectableError_layout (w : U32) :
    UncorrectableError.ofU32 w = UncorrectableError.spec w := by
  bits_simp [UncorrectableError.ofU32, UncorrectableError.spec]

/-- C42: every field of `CorrectableError` is at its bit position. -/
theorem CorrectableError_layout (w : U32) :
    CorrectableError.ofU32 w = CorrectableError.spec w := by
  bits_simp [CorrectableError.ofU32, CorrectableError.spec]

/-- C42: every field of `AdvancedErrorCapabilitiesAndControl` is at its bit position. -/
theorem AdvancedErrorCapabilitiesAndControl_layout (w : U32) :
    AdvancedErrorCapabilitiesAndControl.ofU32 w = AdvancedErrorCapabilitiesAndControl.spec w := by
  bits_simp [AdvancedErrorCapabilitiesAndControl.ofU32, AdvancedErrorCapabilitiesAndControl.spec]

/-- C42: every field of `RootErrorCommand` is at its bit position. -/
theorem RootErrorCommand_layout (w : U32) :
    RootErrorCommand.ofU32 w = RootErrorCommand.spec w := by
  bits_simp [RootErrorCommand.ofU32, RootErrorCommand.spec]

/-- C42: every field of `RootErrorStatus` is at its bit position. -/
theorem RootErrorStatus_layout (w : U32) :
    RootErrorStatus.ofU32 w = RootErrorStatus.spec w := by
  bits_simp [RootErrorStatus.ofU32, RootErrorStatus.spec]

/-- C42: what the code decodes: every register at its offset, except that the TLP prefix log is
taken from offset 0x5c (of the data after the header) and so needs 108 bytes. -/
theorem AdvancedErrorReporting_bytes (d : Bytes) :
    AdvancedErrorReporting.ofBytes d =
      if d.length < 40 then .err .Common
      else if flag (rd32 d 20) 11 then
        if d.length < 108 then .err .TlpPrefixLog else .ok (.spec d (some ⟨rd32s d 92 4⟩))
      else .ok (.spec d none) := by
  by_cases h : d.length < 40
  · rw [if_pos h]
    bytes_len [AdvancedErrorReporting.ofBytes]
  rw [if_neg h]
  bytes_len [AdvancedErrorReporting.ofBytes, AdvancedErrorCapabilitiesAndControl_layout,
    UncorrectableError_layout, CorrectableError_layout, RootErrorCommand_layout,
    RootErrorStatus_layout]
  have hp : (AdvancedErrorCapabilitiesAndControl.spec (rd32 d 20)).tlp_prefix_log_present =
    flag (rd32 d 20) 11 := rfl
  rw [hp]
  by_cases h52 : 52 ≤ d.length
  · rcases Bool.eq_false_or_eq_true (flag (rd32 d 20) 11) with hb | hb
    · by_cases h108 : d.length < 108
      · bytes_len [if_true, if_false, hb]
      · bytes_len [if_true, if_false, hb, AdvancedErrorReporting.spec]
    · bytes_len [if_true, if_false, hb, AdvancedErrorReporting.spec, Bool.false_eq_true]
  · rcases Bool.eq_false_or_eq_true (flag (rd32 d 20) 11) with hb | hb
    · bytes_len [if_true, if_false, hb]
    · bytes_len [if_true, if_false, hb, AdvancedErrorReporting.spec, Bool.false_eq_true]

/-- C42: without TLP prefix log all registers are decoded from their architected offsets. -/
theorem AdvancedErrorReporting_arch_partial (d : Bytes) (h : flag (rd32 d 20) 11 = false) :
    AdvancedErrorReporting.ofBytes d = AdvancedErrorReporting.arch d := by
  rw [AdvancedErrorReporting_bytes, AdvancedErrorReporting.arch]
  simp only [h, Bool.false_eq_true, if_false]

example : flag (rd32 (List.replicate 52 (0xf0 : U8)) 20) 11 = false := by decide +kernel

/-- 68 zero bytes but for the TLP prefix log present bit. -/
def aerWitness (n : Nat) : Bytes := List.replicate 21 0 ++ 8 :: List.replicate n 0

/-- C42 (the code violates it): a complete capability of 72 bytes with TLP prefix log is refused. -/
theorem AdvancedErrorReporting_prefix_refused :
    AdvancedErrorReporting.ofBytes (aerWitness 46) = .err .TlpPrefixLog ∧
    AdvancedErrorReporting.arch (aerWitness 46) =
      .ok (.spec (aerWitness 46) (some ⟨[0, 0, 0, 0]⟩)) := by
  constructor <;> decide +kernel

/-- C42 (the code violates it): with more data behind it the log is read from the wrong place. -/
theorem AdvancedErrorReporting_prefix_wrong :
    ∃ d a b, AdvancedErrorReporting.ofBytes d = .ok a ∧ AdvancedErrorReporting.arch d = .ok b ∧
      a.tlp_prefix_log = some ⟨[0, 0, 0, 0]⟩ ∧ b.tlp_prefix_log = some ⟨[1, 2, 3, 4]⟩ := by
  let d : Bytes := aerWitness 30 ++ [1, 0, 0, 0, 2, 0, 0, 0, 3, 0, 0, 0, 4, 0, 0, 0] ++
    List.replicate 40 0
  refine ⟨d, AdvancedErrorReporting.spec d (some ⟨rd32s d 92 4⟩),
    AdvancedErrorReporting.spec d (some ⟨rd32s d 52 4⟩), ?_, ?_, ?_, ?_⟩ <;> decide +kernel

/-- C42: never panics. -/
theorem AdvancedErrorReporting_no_panic (d : Bytes) : AdvancedErrorReporting.ofBytes d ≠ .panic := by
  rw [AdvancedErrorReporting_bytes]
  split
  · simp
  split
  · split <;> simp
  · simp

/-! ### C76 -/

/-- C76: `UncorrectableError` registers decode to the same value exactly when they agree in bits
0, 4-5, 12-26. -/
theorem UncorrectableError_reads (a b : U32) :
    UncorrectableError.ofU32 a = UncorrectableError.ofU32 b ↔
      a &&& 0x07fff031#32 = b &&& 0x07fff031#32 := by
  reads [UncorrectableError_layout, UncorrectableError.spec, UncorrectableError.mk.injEq]

/-- C76: `CorrectableError` registers decode to the same value exactly when they agree in bits 0,
6-8, 12-15. -/
theorem CorrectableError_reads (a b : U32) :
    CorrectableError.ofU32 a = CorrectableError.ofU32 b ↔
      a &&& 0x0000f1c1#32 = b &&& 0x0000f1c1#32 := by
  reads [CorrectableError_layout, CorrectableError.spec, CorrectableError.mk.injEq]

/-- C76: `AdvancedErrorCapabilitiesAndControl` registers decode to the same value exactly when
they agree in bits 0-12. -/
theorem AdvancedErrorCapabilitiesAndControl_reads (a b : U32) :
    AdvancedErrorCapabilitiesAndControl.ofU32 a = AdvancedErrorCapabilitiesAndControl.ofU32 b ↔
      a &&& 0x00001fff#32 = b &&& 0x00001fff#32 := by
  reads [AdvancedErrorCapabilitiesAndControl_layout, AdvancedErrorCapabilitiesAndControl.spec,
    AdvancedErrorCapabilitiesAndControl.mk.injEq]

/-- C76: `RootErrorCommand` registers decode to the same value exactly when they agree in bits
0-2. -/
theorem RootErrorCommand_reads (a b : U32) :
    RootErrorCommand.ofU32 a = RootErrorCommand.ofU32 b ↔
      a &&& 0x00000007#32 = b &&& 0x00000007#32 := by
  reads [RootErrorCommand_layout, RootErrorCommand.spec, RootErrorCommand.mk.injEq]

/-- C76: `RootErrorStatus` registers decode to the same value exactly when they agree in bits 0-6,
27-31. -/
theorem RootErrorStatus_reads (a b : U32) :
    RootErrorStatus.ofU32 a = RootErrorStatus.ofU32 b ↔
      a &&& 0xf800007f#32 = b &&& 0xf800007f#32 := by
  reads [RootErrorStatus_layout, RootErrorStatus.spec, RootErrorStatus.mk.injEq]

/-- A reserved bit makes no difference to `UncorrectableError`, a defined one does. -/
example : UncorrectableError.ofU32 0x3fd42359 = UncorrectableError.ofU32 0xbfd42359 ∧
    UncorrectableError.ofU32 0x3fd42359 ≠ UncorrectableError.ofU32 0x3fd02359 :=
  ⟨(UncorrectableError_reads _ _).2 (by decide), fun h => absurd ((UncorrectableError_reads _ _).1 h) (by decide)⟩

end Pcics.AdvancedErrorReporting
