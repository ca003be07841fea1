import Verif.Lemmas.Reads
import Verif.Spec.Ext.PciExpressOverMphy
import Verif.Lemmas.Tactics
import Verif.Lemmas.Bv
/- Properties of src/extended_capabilities/pci_express_over_m_phy.rs -/

namespace Pcics.PciExpressOverMphy
open Spec

/-- C65: meaning of every code of `LaneWidthStatus`. -/
theorem LaneWidthStatus_values (b : U8) : LaneWidthStatus.ofU8 b = LaneWidthStatus.spec b := by
  revert b; decide +kernel

/-- C65: meaning of every code of `PhyLocation`. -/
theorem PhyLocation_values (b : U8) : PhyLocation.ofU8 b = PhyLocation.spec b := by
  revert b; decide +kernel

/-- C65: every field of `MpcieLinkSpeed` is at its bit position. -/
theorem MpcieLinkSpeed_layout (w : U8) :
    MpcieLinkSpeed.ofU8 w = MpcieLinkSpeed.spec w := by
  bits_simp [MpcieLinkSpeed.ofU8, MpcieLinkSpeed.spec]

/-- C65: every field of `LaneWidthSupported` is at its bit position. -/
theorem LaneWidthSupported_layout (w : U8) :
    LaneWidthSupported.ofU8 w = LaneWidthSupported.spec w := by
  bits_simp [LaneWidthSupported.ofU8, LaneWidthSupported.spec]

/-- C65: every field of `MpcieCapabilities` is at its bit position. -/
theorem MpcieCapabilities_layout (w : U32) :
    MpcieCapabilities.ofU32 w = MpcieCapabilities.spec w := by
  bits_simp [MpcieCapabilities.ofU32, MpcieCapabilities.spec, LaneWidthSupported_layout,
    MpcieLinkSpeed_layout]

/-- C65: every field of `MpcieControl` is at its bit position. -/
theorem MpcieControl_layout (w : U32) :
    MpcieControl.ofU32 w = MpcieControl.spec w := by
  bits_simp [MpcieControl.ofU32, MpcieControl.spec, MpcieLinkSpeed_layout]

/-- C65: every field of `MpcieStatus` is at its bit position. -/
theorem MpcieStatus_layout (w : U32) :
    MpcieStatus.ofU32 w = MpcieStatus.spec w := by
  bits_simp [MpcieStatus.ofU32, MpcieStatus.spec, LaneWidthStatus_values, MpcieLinkSpeed_layout]

/-- C65: every field of `MpciePhyControlAddress` is at its bit position. -/
theorem MpciePhyControlAddress_layout (w : U32) :
    MpciePhyControlAddress.ofU32 w = MpciePhyControlAddress.spec w := by
  have h : (fld w 16 5 : U8) ||| (fld w 24 1 : U8) <<< 5 =
      cat (fld w 24 1 : BitVec 1) (fld w 16 5 : BitVec 5) := by
    bv_bits []
  bits_simp [MpciePhyControlAddress.ofU32, MpciePhyControlAddress.spec, PhyLocation_values]
  simpa [fld_eq] using h

/-- C65: every field of `MpciePhyControlData` is at its bit position. -/
theorem MpciePhyControlData_layout (w : U32) :
    MpciePhyControlData.ofU32 w = MpciePhyControlData.spec w := by
  bits_simp [MpciePhyControlData.ofU32, MpciePhyControlData.spec]

/-- C65: the structure is decoded exactly when its 28 bytes are there, every field from its
offset. -/
theorem PciExpressOverMphy_bytes (d : Bytes) :
    PciExpressOverMphy.ofBytes d =
      if 28 ≤ d.length then .ok (PciExpressOverMphy.spec d)
      else .err { name := "M-PCIe", size := 28 } := by
  by_cases h4 : 4 ≤ d.length
  case neg =>
    have h : ¬ 28 ≤ d.length := by omega
    bytes_len [PciExpressOverMphy.ofBytes, Option.getD_none, List.length_nil]
  by_cases h : 28 ≤ d.length
  · bytes_len [PciExpressOverMphy.ofBytes, Option.getD_some, PciExpressOverMphy.spec, MpcieCapabilities_layout,
      MpcieControl_layout, MpcieStatus_layout, MpciePhyControlAddress_layout,
      MpciePhyControlData_layout]
  · bytes_len [PciExpressOverMphy.ofBytes, Option.getD_some]

example : ∃ s, PciExpressOverMphy.ofBytes
      [0x20, 0, 1, 0, 3, 0x80, 0x41, 2, 1, 0, 0, 0, 2, 0, 12, 3, 0x0f, 0, 0, 0,
        0xaa, 0, 0x1f, 0xc3, 0x55, 0, 0, 0x80] = .ok s ∧
    s.mpcie_status = ⟨⟨false, true⟩, false, .X12, .Reserved 3⟩ ∧ s.mpcie_lane_error_status = 15 ∧
    s.mpcie_phy_control_address = ⟨0xaa, 0x3f, .RemotePhy, true, true⟩ ∧
    s.mpcie_phy_control_data = ⟨0x55, false, false, true⟩ := by
  refine ⟨_, rfl, ?_⟩; decide +kernel

/-! ### C76 -/

theorem LaneWidthStatus_bits8 {n : Nat} (a b : BitVec n) (lo : Nat) :
    LaneWidthStatus.spec (fld a lo 8) = LaneWidthStatus.spec (fld b lo 8) ↔
      ∀ i, i < 8 → a.getLsbD (lo + i) = b.getLsbD (lo + i) :=
  code_eq_iff _ 8 (by decide) (by decide +kernel) a b lo

theorem PhyLocation_bits3 {n : Nat} (a b : BitVec n) (lo : Nat) :
    PhyLocation.spec (fld a lo 3) = PhyLocation.spec (fld b lo 3) ↔
      ∀ i, i < 3 → a.getLsbD (lo + i) = b.getLsbD (lo + i) :=
  code_eq_iff _ 3 (by decide) (by decide +kernel) a b lo

/-- C76: `MpcieLinkSpeed` registers decode to the same value exactly when they agree in bits 0-1.
-/
theorem MpcieLinkSpeed_reads (a b : U8) :
    MpcieLinkSpeed.ofU8 a = MpcieLinkSpeed.ofU8 b ↔
      a &&& 0x03#8 = b &&& 0x03#8 := by
  reads [MpcieLinkSpeed_layout, MpcieLinkSpeed.spec, MpcieLinkSpeed.mk.injEq]

/-- C76: `LaneWidthSupported` registers decode to the same value exactly when they agree in bits
0-6. -/
theorem LaneWidthSupported_reads (a b : U8) :
    LaneWidthSupported.ofU8 a = LaneWidthSupported.ofU8 b ↔
      a &&& 0x7f#8 = b &&& 0x7f#8 := by
  reads [LaneWidthSupported_layout, LaneWidthSupported.spec, LaneWidthSupported.mk.injEq]

/-- C76: `MpcieCapabilities` registers decode to the same value exactly when they agree in bits
0-1, 15-22, 24-30. -/
theorem MpcieCapabilities_reads (a b : U32) :
    MpcieCapabilities.ofU32 a = MpcieCapabilities.ofU32 b ↔
      a &&& 0x7f7f8003#32 = b &&& 0x7f7f8003#32 := by
  reads [MpcieCapabilities_layout, MpcieCapabilities.spec, MpcieCapabilities.mk.injEq,
    MpcieLinkSpeed.spec, MpcieLinkSpeed.mk.injEq, LaneWidthSupported.spec,
    LaneWidthSupported.mk.injEq]

/-- C76: `MpcieControl` registers decode to the same value exactly when they agree in bits 0-1. -/
theorem MpcieControl_reads (a b : U32) :
    MpcieControl.ofU32 a = MpcieControl.ofU32 b ↔
      a &&& 0x00000003#32 = b &&& 0x00000003#32 := by
  reads [MpcieControl_layout, MpcieControl.spec, MpcieControl.mk.injEq, MpcieLinkSpeed.spec,
    MpcieLinkSpeed.mk.injEq]

/-- C76: `MpcieStatus` registers decode to the same value exactly when they agree in bits 0-1,
15-31. -/
theorem MpcieStatus_reads (a b : U32) :
    MpcieStatus.ofU32 a = MpcieStatus.ofU32 b ↔
      a &&& 0xffff8003#32 = b &&& 0xffff8003#32 := by
  reads [MpcieStatus_layout, MpcieStatus.spec, MpcieStatus.mk.injEq, MpcieLinkSpeed.spec,
    MpcieLinkSpeed.mk.injEq, LaneWidthStatus_bits8]

/-- C76: `MpciePhyControlAddress` registers decode to the same value exactly when they agree in
bits 0-7, 16-20, 24-27, 30-31. -/
theorem MpciePhyControlAddress_reads (a b : U32) :
    MpciePhyControlAddress.ofU32 a = MpciePhyControlAddress.ofU32 b ↔
      a &&& 0xcf1f00ff#32 = b &&& 0xcf1f00ff#32 := by
  reads [MpciePhyControlAddress_layout, MpciePhyControlAddress.spec,
    MpciePhyControlAddress.mk.injEq, cat_eq_iff, PhyLocation_bits3]

/-- C76: `MpciePhyControlData` registers decode to the same value exactly when they agree in bits
0-7, 29-31. -/
theorem MpciePhyControlData_reads (a b : U32) :
    MpciePhyControlData.ofU32 a = MpciePhyControlData.ofU32 b ↔
      a &&& 0xe00000ff#32 = b &&& 0xe00000ff#32 := by
  reads [MpciePhyControlData_layout, MpciePhyControlData.spec, MpciePhyControlData.mk.injEq]

/-- A reserved bit makes no difference to `MpcieLinkSpeed`, a defined one does. -/
example : MpcieLinkSpeed.ofU8 0x03 = MpcieLinkSpeed.ofU8 0x83 ∧
    MpcieLinkSpeed.ofU8 0x03 ≠ MpcieLinkSpeed.ofU8 0x01 :=
  ⟨(MpcieLinkSpeed_reads _ _).2 (by decide), fun h => absurd ((MpcieLinkSpeed_reads _ _).1 h) (by decide)⟩

end Pcics.PciExpressOverMphy
