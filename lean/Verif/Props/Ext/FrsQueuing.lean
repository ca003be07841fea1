import Verif.Lemmas.Reads
import Verif.Spec.Ext.FrsQueuing
import Verif.Lemmas.Tactics
import Verif.Lemmas.Bv
/- Properties of src/extended_capabilities/frs_queuing.rs -/

namespace Pcics.FrsQueuing
open Spec

/-- C59: every field of `FrsQueuingCapability` is at its bit position. -/
theorem FrsQueuingCapability_layout (w : U32) :
    FrsQueuingCapability.ofU32 w = FrsQueuingCapability.spec w := by
  bits_simp [FrsQueuingCapability.ofU32, FrsQueuingCapability.spec]

/-- C59: every field of `FrsQueuingStatus` is at its bit position. -/
theorem FrsQueuingStatus_layout (w : U16) :
    FrsQueuingStatus.ofU16 w = FrsQueuingStatus.spec w := by
  bits_simp [FrsQueuingStatus.ofU16, FrsQueuingStatus.spec]

/-- C59: every field of `FrsQueuingControl` is at its bit position. -/
theorem FrsQueuingControl_layout (w : U16) :
    FrsQueuingControl.ofU16 w = FrsQueuingControl.spec w := by
  bits_simp [FrsQueuingControl.ofU16, FrsQueuingControl.spec]

/-- C59: every field of `FrsMessageQueue` is at its bit position. -/
theorem FrsMessageQueue_layout (w : U32) :
    FrsMessageQueue.ofU32 w = FrsMessageQueue.spec w := by
  bits_simp [FrsMessageQueue.ofU32, FrsMessageQueue.spec]

/-- C59: FrsQueuing needs 16 bytes, every register is at its offset. -/
theorem FrsQueuing_bytes (d : Bytes) :
    FrsQueuing.ofBytes d =
      if 16 ≤ d.length then .ok (FrsQueuing.spec d) else .err ⟨"FRS Queuing", 16⟩ := by
  unfold FrsQueuing.ofBytes
  by_cases h4 : 4 ≤ d.length
  · by_cases h : 16 ≤ d.length <;>
      bytes_len [Option.getD_some, FrsQueuingCapability_layout, FrsQueuingStatus_layout, FrsQueuingControl_layout, FrsMessageQueue_layout, FrsQueuing.spec]
  · have h : ¬ 16 ≤ d.length := by omega
    bytes_len [Option.getD_none, List.length_nil]

example : FrsQueuing.ofBytes [0x21, 0, 1, 0, 0x34, 0x02, 0x05, 0, 1, 0, 1, 0, 0x22, 0x11, 0x32, 0] =
    .ok ⟨⟨0x234, 5⟩, ⟨true, false⟩, ⟨true⟩, ⟨0x1122, 2, 3⟩⟩ := by decide +kernel

/-! ### C76 -/

/-- C76: `FrsQueuingCapability` registers decode to the same value exactly when they agree in bits
0-11, 16-20. -/
theorem FrsQueuingCapability_reads (a b : U32) :
    FrsQueuingCapability.ofU32 a = FrsQueuingCapability.ofU32 b ↔
      a &&& 0x001f0fff#32 = b &&& 0x001f0fff#32 := by
  reads [FrsQueuingCapability_layout, FrsQueuingCapability.spec, FrsQueuingCapability.mk.injEq]

/-- C76: `FrsQueuingStatus` registers decode to the same value exactly when they agree in bits
0-1. -/
theorem FrsQueuingStatus_reads (a b : U16) :
    FrsQueuingStatus.ofU16 a = FrsQueuingStatus.ofU16 b ↔
      a &&& 0x0003#16 = b &&& 0x0003#16 := by
  reads [FrsQueuingStatus_layout, FrsQueuingStatus.spec, FrsQueuingStatus.mk.injEq]

/-- C76: `FrsQueuingControl` registers decode to the same value exactly when they agree in bits 0.
-/
theorem FrsQueuingControl_reads (a b : U16) :
    FrsQueuingControl.ofU16 a = FrsQueuingControl.ofU16 b ↔
      a &&& 0x0001#16 = b &&& 0x0001#16 := by
  reads [FrsQueuingControl_layout, FrsQueuingControl.spec, FrsQueuingControl.mk.injEq]

/-- C76: `FrsMessageQueue` registers decode to the same value only if they are equal. -/
theorem FrsMessageQueue_reads (a b : U32) :
    FrsMessageQueue.ofU32 a = FrsMessageQueue.ofU32 b ↔
      a = b := by
  rw [eq_iff_bits a b]
  reads [FrsMessageQueue_layout, FrsMessageQueue.spec, FrsMessageQueue.mk.injEq]

/-- A reserved bit makes no difference to `FrsQueuingCapability`, a defined one does. -/
example : FrsQueuingCapability.ofU32 0x617959ce = FrsQueuingCapability.ofU32 0xe17959ce ∧
    FrsQueuingCapability.ofU32 0x617959ce ≠ FrsQueuingCapability.ofU32 0x617958ce :=
  ⟨(FrsQueuingCapability_reads _ _).2 (by decide), fun h => absurd ((FrsQueuingCapability_reads _ _).1 h) (by decide)⟩

end Pcics.FrsQueuing
