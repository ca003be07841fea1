import Verif.Spec.Cap.Small
import Verif.Lemmas.Tactics
import Verif.Lemmas.Bv
/- C32: the small fixed-size capabilities. -/

namespace Pcics
open Spec

/-- C32: Advanced Features needs 4 bytes. -/
theorem AdvancedFeatures_bytes (d : Bytes) :
    AdvancedFeatures.ofBytes d =
      if 4 ≤ d.length then .ok (AdvancedFeatures.spec d) else .err ⟨"Advanced Features", 4⟩ := by
  bytes_simp [AdvancedFeatures.ofBytes]
  bits_simp [AdvancedFeatures.spec]

example : AdvancedFeatures.ofBytes [6, 3, 1, 1] = .ok ⟨6, ⟨true, true⟩, ⟨true⟩, ⟨true⟩⟩ := by
  decide +kernel

/-- C32: Bridge Subsystem Vendor ID needs 6 bytes. -/
theorem BridgeSubsystemVendorId_bytes (d : Bytes) :
    BridgeSubsystemVendorId.ofBytes d =
      if 6 ≤ d.length then .ok (BridgeSubsystemVendorId.spec d)
      else .err ⟨"Bridge Subsystem Vendor ID", 6⟩ := by
  unfold BridgeSubsystemVendorId.ofBytes BridgeSubsystemVendorId.ofArray getTo
    BridgeSubsystemVendorId.SIZE
  by_cases h : 6 ≤ d.length
  · simp only [Nat.reduceAdd, h, if_true, Res.okOr, Res.bind_ok]
    bytes_norm [List.length_take, Nat.min_eq_left h]
    simp [BridgeSubsystemVendorId.spec, rd16_take]
  · simp only [Nat.reduceAdd, h, if_false, Res.okOr, Res.bind_err]

example : BridgeSubsystemVendorId.ofBytes [0, 0, 0x86, 0x80, 0x34, 0x12, 9] =
    .ok ⟨0, 0x8086, 0x1234⟩ := by decide +kernel

/-- C32: Debug Port needs 2 bytes. -/
theorem DebugPort_bytes (d : Bytes) :
    DebugPort.ofBytes d =
      if 2 ≤ d.length then .ok (DebugPort.spec d) else .err ⟨"Debug port", 2⟩ := by
  bytes_simp [DebugPort.ofBytes]
  simp only [DebugPort.spec, Res.ok.injEq, DebugPort.mk.injEq]
  generalize rd16 d 0 = w
  constructor
  · bv_bits []
  · bv_bits []

example : DebugPort.ofBytes [0xa0, 0x20] = .ok ⟨0xa0, 1⟩ := by decide +kernel

/-- C32: SATA BAR location codes. -/
theorem SataBarLocation_values (b : U8) : Sata.BarLocation.ofU8 b = Sata.BarLocation.spec b := by
  revert b; decide +kernel

/-- C32: Serial ATA needs 6 bytes. -/
theorem Sata_bytes (d : Bytes) :
    Sata.ofBytes d = if 6 ≤ d.length then .ok (Sata.spec d) else .err ⟨"Serial ATA", 6⟩ := by
  bytes_simp [Sata.ofBytes]
  bits_simp [Sata.spec, SataBarLocation_values]

example : Sata.ofBytes [0x10, 0, 0x48, 0, 0, 0] = .ok ⟨⟨0, 1⟩, ⟨4⟩, .Bar4⟩ := by decide +kernel

/-- C32: the byte offset of a decoded SATA capability is four times the field, without
overflow. -/
theorem Sata_value (d : Bytes) (s : Sata) (h : Sata.ofBytes d = .ok s) :
    ∃ v, (s.bar_offset.value : Res Unit U32) = .ok v ∧ v.toNat = 4 * s.bar_offset.val.toNat := by
  rw [Sata_bytes] at h
  split at h <;> simp only [Res.ok.injEq, reduceCtorEq] at h
  subst h
  have : (fld (rd32 d 2) 4 20 : U32).toNat < 2 ^ 20 := by
    simp only [fld, BitVec.toNat_setWidth, BitVec.extractLsb'_toNat]; omega
  refine ⟨(fld (rd32 d 2) 4 20 : U32) * 4#32, ?_, ?_⟩
  · exact if_pos (by simp only [Sata.spec]; omega)
  · simp only [Sata.spec, BitVec.toNat_mul, BitVec.toNat_ofNat]
    omega

/-- C32: Slot Identification needs 2 bytes. -/
theorem SlotIdentification_bytes (d : Bytes) :
    SlotIdentification.ofBytes d =
      if 2 ≤ d.length then .ok (SlotIdentification.spec d)
      else .err ⟨"Slot Identification", 2⟩ := by
  bytes_simp [SlotIdentification.ofBytes]
  bits_simp [SlotIdentification.spec]

example : SlotIdentification.ofBytes [0x22, 7] = .ok ⟨⟨2, true⟩, 7⟩ := by decide +kernel

/-- C32: Vital Product Data needs 6 bytes. -/
theorem VitalProductData_bytes (d : Bytes) :
    VitalProductData.ofBytes d =
      if 6 ≤ d.length then .ok (VitalProductData.spec d)
      else .err ⟨"Vital Product Data", 6⟩ := by
  bytes_simp [VitalProductData.ofBytes]
  bits_simp [VitalProductData.spec]

example : VitalProductData.ofBytes [0xfc, 0xff, 0x78, 0, 0, 1] =
    .ok ⟨0x7ffc, true, 0x01000078⟩ := by decide +kernel

end Pcics
