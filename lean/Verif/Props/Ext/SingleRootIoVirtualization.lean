import Verif.Lemmas.Reads
import Verif.Spec.Ext.SingleRootIoVirtualization
import Verif.Lemmas.Tactics
import Verif.Lemmas.Bv
/- Properties of src/extended_capabilities/single_root_io_virtualization.rs -/

namespace Pcics.SingleRootIoVirtualization
open Spec

/-- C54: every field of `SriovCapabilities` is at its bit position. -/
theorem SriovCapabilities_layout (w : U32) :
    SriovCapabilities.ofU32 w = SriovCapabilities.spec w := by
  bits_simp [SriovCapabilities.ofU32, SriovCapabilities.spec]

/-- C54: every field of `SriovControl` is at its bit position. -/
theorem SriovControl_layout (w : U16) :
    SriovControl.ofU16 w = SriovControl.spec w := by
  bits_simp [SriovControl.ofU16, SriovControl.spec]

/-- C54: every field of `SriovStatus` is at its bit position. -/
theorem SriovStatus_layout (w : U16) :
    SriovStatus.ofU16 w = SriovStatus.spec w := by
  bits_simp [SriovStatus.ofU16, SriovStatus.spec]

/-- C54: the structure is decoded exactly when 60 bytes are there, every field from its offset. -/
theorem SingleRootIoVirtualization_bytes (d : Bytes) :
    SingleRootIoVirtualization.ofBytes d =
      if 60 ≤ d.length then .ok (SingleRootIoVirtualization.spec d)
      else .err { name := "Single Root I/O Virtualization", size := 60 } := by
  by_cases h : 60 ≤ d.length
  · bytes_len [SingleRootIoVirtualization.ofBytes, SingleRootIoVirtualization.parse,
      SingleRootIoVirtualization.spec, Header.BaseAddresses.new, SriovCapabilities_layout,
      SriovControl_layout, SriovStatus_layout]
  · bytes_len [SingleRootIoVirtualization.ofBytes]

example : ∃ s, SingleRootIoVirtualization.ofBytes
      ([2, 0, 0, 0, 0x19, 0, 1, 0, 8, 0, 7, 0, 6, 0, 5, 0, 0x80, 1, 4, 0, 0, 0, 0x20, 0x15,
        0x53, 5, 0, 0, 1, 0, 0, 0, 0x0c, 0, 0x18, 0xa0] ++ List.replicate 24 0) = .ok s ∧
    s.sriov_capabilities = ⟨false, true, false, 0⟩ ∧
    s.sriov_control = ⟨true, false, false, true, true, false⟩ ∧
    s.vf_device_id = 0x1520 ∧ s.first_vf_offset = 384 ∧ s.vf_stride = 4 ∧
    s.base_addresses.data = [0xa018000c, 0, 0, 0, 0, 0] := by
  refine ⟨_, rfl, ?_⟩; decide +kernel

/-! ### C76 -/

/-- C76: `SriovCapabilities` registers decode to the same value exactly when they agree in bits
0-2, 21-31. -/
theorem SriovCapabilities_reads (a b : U32) :
    SriovCapabilities.ofU32 a = SriovCapabilities.ofU32 b ↔
      a &&& 0xffe00007#32 = b &&& 0xffe00007#32 := by
  reads [SriovCapabilities_layout, SriovCapabilities.spec, SriovCapabilities.mk.injEq]

/-- C76: `SriovControl` registers decode to the same value exactly when they agree in bits 0-5. -/
theorem SriovControl_reads (a b : U16) :
    SriovControl.ofU16 a = SriovControl.ofU16 b ↔
      a &&& 0x003f#16 = b &&& 0x003f#16 := by
  reads [SriovControl_layout, SriovControl.spec, SriovControl.mk.injEq]

/-- C76: `SriovStatus` registers decode to the same value exactly when they agree in bits 0. -/
theorem SriovStatus_reads (a b : U16) :
    SriovStatus.ofU16 a = SriovStatus.ofU16 b ↔
      a &&& 0x0001#16 = b &&& 0x0001#16 := by
  reads [SriovStatus_layout, SriovStatus.spec, SriovStatus.mk.injEq]

/-- A reserved bit makes no difference to `SriovCapabilities`, a defined one does. -/
example : SriovCapabilities.ofU32 0xf17fd374 = SriovCapabilities.ofU32 0xf16fd374 ∧
    SriovCapabilities.ofU32 0xf17fd374 ≠ SriovCapabilities.ofU32 0xf37fd374 :=
  ⟨(SriovCapabilities_reads _ _).2 (by decide), fun h => absurd ((SriovCapabilities_reads _ _).1 h) (by decide)⟩

end Pcics.SingleRootIoVirtualization
