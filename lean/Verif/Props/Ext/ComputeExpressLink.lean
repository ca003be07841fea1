import Verif.Lemmas.Reads
import Verif.Spec.Ext.ComputeExpressLink
import Verif.Lemmas.Tactics
import Verif.Lemmas.Bv
/- Properties of src/extended_capabilities/designated_vendor_specific_extended_capability/compute_express_link/pcie_dvsec_for_cxl_device.rs -/

namespace Pcics.ComputeExpressLink
open Spec

/-- C57: the `4` codes of `HdmCount` decode without panic, to their meanings. -/
theorem HdmCount_total {ε : Type} (n : Nat) :
    (HdmCount.ofU8 (BitVec.ofNat 8 (n % 4)) : Res ε HdmCount) =
      .ok (HdmCount.spec (BitVec.ofNat 8 (n % 4))) := by
  have h : n % 4 < 4 := Nat.mod_lt _ (by decide)
  generalize n % 4 = m at h
  interval_cases m <;> rfl

/-- C57: meaning of every code of `CxlResetTimeout`. -/
theorem CxlResetTimeout_values (b : U8) : CxlResetTimeout.ofU8 b = CxlResetTimeout.spec b := by
  revert b; decide +kernel

/-- C57: the `32` codes of `CacheSfCoverage` decode without panic, to their meanings. -/
theorem CacheSfCoverage_total {ε : Type} (n : Nat) :
    (CacheSfCoverage.ofU8 (BitVec.ofNat 8 (n % 32)) : Res ε CacheSfCoverage) =
      .ok (CacheSfCoverage.spec (BitVec.ofNat 8 (n % 32))) := by
  have h : n % 32 < 32 := Nat.mod_lt _ (by decide)
  generalize n % 32 = m at h
  interval_cases m <;> rfl

/-- C57: the `8` codes of `CacheSfGranularity` decode without panic, to their meanings. -/
theorem CacheSfGranularity_total {ε : Type} (n : Nat) :
    (CacheSfGranularity.ofU8 (BitVec.ofNat 8 (n % 8)) : Res ε CacheSfGranularity) =
      .ok (CacheSfGranularity.spec (BitVec.ofNat 8 (n % 8))) := by
  have h : n % 8 < 8 := Nat.mod_lt _ (by decide)
  generalize n % 8 = m at h
  interval_cases m <;> rfl

/-- C57: meaning of every code of `CacheSizeUnit`. -/
theorem CacheSizeUnit_values (b : U8) : CacheSizeUnit.ofU8 b = CacheSizeUnit.spec b := by
  revert b; decide +kernel

/-- C57: meaning of every code of `MediaType`. -/
theorem MediaType_values (b : U8) : MediaType.ofU8 b = MediaType.spec b := by
  revert b; decide +kernel

/-- C57: meaning of every code of `MemoryClass`. -/
theorem MemoryClass_values (b : U8) : MemoryClass.ofU8 b = MemoryClass.spec b := by
  revert b; decide +kernel

/-- C57: meaning of every code of `DesiredInterleave`. -/
theorem DesiredInterleave_values (b : U8) : DesiredInterleave.ofU8 b = DesiredInterleave.spec b := by
  revert b; decide +kernel

/-- C57: meaning of every code of `MemoryActiveTimeout`. -/
theorem MemoryActiveTimeout_values (b : U8) : MemoryActiveTimeout.ofU8 b = MemoryActiveTimeout.spec b := by
  revert b; decide +kernel

/-- C57: every field of `CxlCapability` is at its bit position. -/
theorem CxlCapability_layout {ε : Type} (w : U16) :
    (CxlCapability.ofU16 w : Res ε CxlCapability) = .ok (CxlCapability.spec w) := by
  bits_simp [CxlCapability.ofU16, CxlCapability.spec, CxlResetTimeout_values, HdmCount_total]

/-- C57: both values of `CacheCleanEviction`. -/
theorem CacheCleanEviction_values (b : Bool) : CacheCleanEviction.ofBOOL b = CacheCleanEviction.spec b := by
  cases b <;> rfl

/-- C57: every field of `CxlControl` is at its bit position. -/
theorem CxlControl_layout {ε : Type} (w : U16) :
    (CxlControl.ofU16 w : Res ε CxlControl) = .ok (CxlControl.spec w) := by
  bits_simp [CxlControl.ofU16, CxlControl.spec, CacheCleanEviction_values, CacheSfCoverage_total,
    CacheSfGranularity_total]

/-- C57: every field of `CxlStatus` is at its bit position. -/
theorem CxlStatus_layout (w : U16) :
    CxlStatus.ofU16 w = CxlStatus.spec w := by
  bits_simp [CxlStatus.ofU16, CxlStatus.spec]

/-- C57: every field of `CxlControl2` is at its bit position. -/
theorem CxlControl2_layout (w : U16) :
    CxlControl2.ofU16 w = CxlControl2.spec w := by
  bits_simp [CxlControl2.ofU16, CxlControl2.spec]

/-- C57: every field of `CxlStatus2` is at its bit position. -/
theorem CxlStatus2_layout (w : U16) :
    CxlStatus2.ofU16 w = CxlStatus2.spec w := by
  bits_simp [CxlStatus2.ofU16, CxlStatus2.spec]

/-- C57: every field of `CxlLock` is at its bit position. -/
theorem CxlLock_layout (w : U16) :
    CxlLock.ofU16 w = CxlLock.spec w := by
  bits_simp [CxlLock.ofU16, CxlLock.spec]

/-- C57: every field of `CxlCapability2` is at its bit position. -/
theorem CxlCapability2_layout (w : U16) :
    CxlCapability2.ofU16 w = CxlCapability2.spec w := by
  bits_simp [CxlCapability2.ofU16, CxlCapability2.spec, CacheSizeUnit_values]

/-- C57: range size register pair. -/
theorem CxlRangeSize_layout (low high : U32) :
    CxlRangeSize.new low high = CxlRangeSize.spec low high := by
  have hs : (BitVec.ofNat 64 (low.toNat / 2 ^ 28 % 2 ^ 4) <<< 28 ||| high.setWidth 64 <<< 32 : U64) =
      cat high (low &&& 0xf0000000#32) := by
    have : (BitVec.ofNat 64 (low.toNat / 2 ^ 28 % 2 ^ 4) : U64) = fld low 28 4 := by simp [fld_eq]
    rw [this]
    bv_bits []
  simp only [Nat.reducePow] at hs
  bits_simp [CxlRangeSize.new, CxlRangeSize.spec, MediaType_values, MemoryClass_values,
    DesiredInterleave_values, MemoryActiveTimeout_values, hs]

/-- C57: range base register pair (all 32 bits of the low register, including the reserved 27:0). -/
theorem CxlRangeBase_layout (low high : U32) :
    CxlRangeBase.new low high = { memory_base := cat high low } := by
  simp only [CxlRangeBase.new, CxlRangeBase.mk.injEq]
  bv_bits []

set_option maxHeartbeats 1000000 in
/-- C57: the CXL device DVSEC needs 46 register bytes; every register is at its offset; no panic. -/
theorem PcieDvsecForCxlDevice_bytes (d : Bytes) :
    PcieDvsecForCxlDevice.ofBytes d =
      if 46 ≤ d.length then .ok (PcieDvsecForCxlDevice.spec d) else .err .PcieDvsecForCxlDevice := by
  by_cases h : 46 ≤ d.length <;>
    bytes_len [PcieDvsecForCxlDevice.ofBytes, PcieDvsecForCxlDevice.spec, CxlCapability_layout,
      CxlControl_layout, CxlStatus_layout, CxlControl2_layout, CxlStatus2_layout, CxlLock_layout,
      CxlCapability2_layout, CxlRangeSize_layout, CxlRangeBase_layout]

/-- C57: dispatch on the DVSEC ID. -/
theorem ComputeExpressLink_ids (d : Bytes) (id : U16) :
    ComputeExpressLink.tryNew d id = ComputeExpressLink.spec d id := by
  unfold ComputeExpressLink.tryNew ComputeExpressLink.spec
  rw [PcieDvsecForCxlDevice_bytes]
  by_cases h : id.toNat ≤ 0x0a
  · have hb : id = BitVec.ofNat 16 id.toNat := by simp
    generalize id.toNat = n at hb h
    subst hb
    interval_cases n <;> first | rfl | (by_cases hl : 46 ≤ d.length <;> simp [hl, pick, Res.map'])
  · have hne : ∀ k : Nat, k ≤ 0x0a → id ≠ BitVec.ofNat 16 k := by
      rintro k hk rfl
      simp only [BitVec.toNat_ofNat] at h
      omega
    simp only [pick]
    show _ = if id = 0#16 then _ else if id = 2#16 then _ else if id = 3#16 then _
      else if id = 4#16 then _ else if id = 5#16 then _ else if id = 7#16 then _
      else if id = 8#16 then _ else if id = 9#16 then _ else if id = 10#16 then _ else _
    rw [if_neg (hne 0 (by decide)), if_neg (hne 2 (by decide)), if_neg (hne 3 (by decide)),
      if_neg (hne 4 (by decide)), if_neg (hne 5 (by decide)), if_neg (hne 7 (by decide)),
      if_neg (hne 8 (by decide)), if_neg (hne 9 (by decide)), if_neg (hne 10 (by decide))]
    split <;> first | rfl | (exfalso; omega)

/-- C56, C57: the snoop filter coverage is given back by the conversion to `u8`. -/
theorem CacheSfCoverage_roundtrip (b : U8) (h : b.toNat < 32) :
    ∃ c, (CacheSfCoverage.ofU8 b : Res Unit CacheSfCoverage) = .ok c ∧ c.toU8 = b := by
  have hb : b = BitVec.ofNat 8 b.toNat := by simp
  generalize b.toNat = n at hb h
  subst hb
  interval_cases n <;> exact ⟨_, rfl, by decide +kernel⟩

example : (PcieDvsecForCxlDevice.ofBytes (List.replicate 14 0 ++
    [1, 0, 0, 0, 3, 0, 0, 0x20] ++ List.replicate 24 0)).map' (·.cxl_range_1_size.memory_size) =
    .ok 0x120000000 := by decide +kernel

/-! ### C76 -/

theorem HdmCount_bits2 {n : Nat} (a b : BitVec n) (lo : Nat) :
    HdmCount.spec (fld a lo 2) = HdmCount.spec (fld b lo 2) ↔
      ∀ i, i < 2 → a.getLsbD (lo + i) = b.getLsbD (lo + i) :=
  code_eq_iff _ 2 (by decide) (by decide +kernel) a b lo

theorem CxlResetTimeout_bits3 {n : Nat} (a b : BitVec n) (lo : Nat) :
    CxlResetTimeout.spec (fld a lo 3) = CxlResetTimeout.spec (fld b lo 3) ↔
      ∀ i, i < 3 → a.getLsbD (lo + i) = b.getLsbD (lo + i) :=
  code_eq_iff _ 3 (by decide) (by decide +kernel) a b lo

theorem CacheSfCoverage_bits5 {n : Nat} (a b : BitVec n) (lo : Nat) :
    CacheSfCoverage.spec (fld a lo 5) = CacheSfCoverage.spec (fld b lo 5) ↔
      ∀ i, i < 5 → a.getLsbD (lo + i) = b.getLsbD (lo + i) :=
  code_eq_iff _ 5 (by decide) (by decide +kernel) a b lo

theorem CacheSfGranularity_bits3 {n : Nat} (a b : BitVec n) (lo : Nat) :
    CacheSfGranularity.spec (fld a lo 3) = CacheSfGranularity.spec (fld b lo 3) ↔
      ∀ i, i < 3 → a.getLsbD (lo + i) = b.getLsbD (lo + i) :=
  code_eq_iff _ 3 (by decide) (by decide +kernel) a b lo

theorem CacheSizeUnit_bits4 {n : Nat} (a b : BitVec n) (lo : Nat) :
    CacheSizeUnit.spec (fld a lo 4) = CacheSizeUnit.spec (fld b lo 4) ↔
      ∀ i, i < 4 → a.getLsbD (lo + i) = b.getLsbD (lo + i) :=
  code_eq_iff _ 4 (by decide) (by decide +kernel) a b lo

theorem CacheCleanEviction_bit (x y : Bool) : CacheCleanEviction.spec x = CacheCleanEviction.spec y ↔ x = y := by
  revert x y; decide

/-- C76: `CxlCapability` registers decode to the same value exactly when they agree in bits 0-11,
13-15. -/
theorem CxlCapability_reads {ε : Type} (a b : U16) :
    (CxlCapability.ofU16 a : Res ε CxlCapability) = CxlCapability.ofU16 b ↔
      a &&& 0xefff#16 = b &&& 0xefff#16 := by
  reads [CxlCapability_layout, CxlCapability.spec, CxlCapability.mk.injEq, HdmCount_bits2,
    CxlResetTimeout_bits3]

/-- C76: `CxlControl` registers decode to the same value exactly when they agree in bits 0-11, 14.
-/
theorem CxlControl_reads {ε : Type} (a b : U16) :
    (CxlControl.ofU16 a : Res ε CxlControl) = CxlControl.ofU16 b ↔
      a &&& 0x4fff#16 = b &&& 0x4fff#16 := by
  reads [CxlControl_layout, CxlControl.spec, CxlControl.mk.injEq, CacheSfCoverage_bits5,
    CacheSfGranularity_bits3, CacheCleanEviction_bit]

/-- C76: `CxlStatus` registers decode to the same value exactly when they agree in bits 14. -/
theorem CxlStatus_reads (a b : U16) :
    CxlStatus.ofU16 a = CxlStatus.ofU16 b ↔
      a &&& 0x4000#16 = b &&& 0x4000#16 := by
  reads [CxlStatus_layout, CxlStatus.spec, CxlStatus.mk.injEq]

/-- C76: `CxlControl2` registers decode to the same value exactly when they agree in bits 0-3. -/
theorem CxlControl2_reads (a b : U16) :
    CxlControl2.ofU16 a = CxlControl2.ofU16 b ↔
      a &&& 0x000f#16 = b &&& 0x000f#16 := by
  reads [CxlControl2_layout, CxlControl2.spec, CxlControl2.mk.injEq]

/-- C76: `CxlStatus2` registers decode to the same value exactly when they agree in bits 0-2, 15.
-/
theorem CxlStatus2_reads (a b : U16) :
    CxlStatus2.ofU16 a = CxlStatus2.ofU16 b ↔
      a &&& 0x8007#16 = b &&& 0x8007#16 := by
  reads [CxlStatus2_layout, CxlStatus2.spec, CxlStatus2.mk.injEq]

/-- C76: `CxlLock` registers decode to the same value exactly when they agree in bits 0. -/
theorem CxlLock_reads (a b : U16) :
    CxlLock.ofU16 a = CxlLock.ofU16 b ↔
      a &&& 0x0001#16 = b &&& 0x0001#16 := by
  reads [CxlLock_layout, CxlLock.spec, CxlLock.mk.injEq]

/-- C76: `CxlCapability2` registers decode to the same value exactly when they agree in bits 0-3,
8-15. -/
theorem CxlCapability2_reads (a b : U16) :
    CxlCapability2.ofU16 a = CxlCapability2.ofU16 b ↔
      a &&& 0xff0f#16 = b &&& 0xff0f#16 := by
  reads [CxlCapability2_layout, CxlCapability2.spec, CxlCapability2.mk.injEq, CacheSizeUnit_bits4]

theorem MediaType_bits3 {n : Nat} (a b : BitVec n) (lo : Nat) :
    MediaType.spec (fld a lo 3) = MediaType.spec (fld b lo 3) ↔
      ∀ i, i < 3 → a.getLsbD (lo + i) = b.getLsbD (lo + i) :=
  code_eq_iff _ 3 (by decide) (by decide +kernel) a b lo

theorem MemoryClass_bits3 {n : Nat} (a b : BitVec n) (lo : Nat) :
    MemoryClass.spec (fld a lo 3) = MemoryClass.spec (fld b lo 3) ↔
      ∀ i, i < 3 → a.getLsbD (lo + i) = b.getLsbD (lo + i) :=
  code_eq_iff _ 3 (by decide) (by decide +kernel) a b lo

theorem DesiredInterleave_bits5 {n : Nat} (a b : BitVec n) (lo : Nat) :
    DesiredInterleave.spec (fld a lo 5) = DesiredInterleave.spec (fld b lo 5) ↔
      ∀ i, i < 5 → a.getLsbD (lo + i) = b.getLsbD (lo + i) :=
  code_eq_iff _ 5 (by decide) (by decide +kernel) a b lo

theorem MemoryActiveTimeout_bits3 {n : Nat} (a b : BitVec n) (lo : Nat) :
    MemoryActiveTimeout.spec (fld a lo 3) = MemoryActiveTimeout.spec (fld b lo 3) ↔
      ∀ i, i < 3 → a.getLsbD (lo + i) = b.getLsbD (lo + i) :=
  code_eq_iff _ 3 (by decide) (by decide +kernel) a b lo

/-- C76: `CxlRangeSize` register pairs decode to the same value exactly when they agree in the high
register and bits 0-15, 28-31 of the low one. -/
theorem CxlRangeSize_reads (a b ah bh : U32) :
    CxlRangeSize.new a ah = CxlRangeSize.new b bh ↔
      ah = bh ∧ a &&& 0xf000ffff#32 = b &&& 0xf000ffff#32 := by
  simp only [CxlRangeSize_layout, CxlRangeSize.spec, CxlRangeSize.mk.injEq,
    cat_eq_iff _ _ _ _ (by decide : 32 + 32 ≤ 64), MediaType_bits3, MemoryClass_bits3,
    DesiredInterleave_bits5, MemoryActiveTimeout_bits3]
  by_cases hh : ah = bh
  · subst hh
    simp only [true_and]
    simp only [flag, mask_eq_iff, all_lt_succ, all_lt_zero, Nat.reduceAdd, true_and, and_true,
      BitVec.reduceGetLsb, Bool.false_eq_true, false_imp_iff, true_imp_iff, forall_const]
    constructor <;> (intro h; simp only [h, and_self])
  · simp only [hh, false_and, and_false]

/-- C76 (the code violates it): bits 27:0 of the low `CxlRangeBase` register are reserved, but kept as
address bits. -/
theorem CxlRangeBase_reserved_kept :
    ¬ ∀ a b h : U32, fld a 28 4 = (fld b 28 4 : U8) → CxlRangeBase.new a h = CxlRangeBase.new b h := by
  intro hall
  exact absurd (hall 0 1 0 (by decide)) (by decide)

/-- C76: `CxlRangeBase` register pairs decode to the same value exactly when they are equal. -/
theorem CxlRangeBase_reads_partial (a b ah bh : U32) :
    CxlRangeBase.new a ah = CxlRangeBase.new b bh ↔ ah = bh ∧ a = b := by
  rw [CxlRangeBase_layout, CxlRangeBase_layout, CxlRangeBase.mk.injEq,
    cat_eq_iff _ _ _ _ (by decide : 32 + 32 ≤ 64)]

/-- A reserved bit makes no difference to `CxlCapability`, a defined one does. -/
example : (CxlCapability.ofU16 0xde52 : Res Empty _) = CxlCapability.ofU16 0xce52 ∧
    (CxlCapability.ofU16 0xde52 : Res Empty _) ≠ CxlCapability.ofU16 0xded2 :=
  ⟨(CxlCapability_reads _ _).2 (by decide), fun h => absurd ((CxlCapability_reads _ _).1 h) (by decide)⟩

end Pcics.ComputeExpressLink
