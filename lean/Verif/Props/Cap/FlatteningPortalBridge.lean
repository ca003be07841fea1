import Verif.Lemmas.Reads
import Verif.Spec.Cap.FlatteningPortalBridge
import Verif.Lemmas.Tactics
import Verif.Lemmas.Bv
/- Properties of src/capabilities/flattening_portal_bridge.rs -/

namespace Pcics.FlatteningPortalBridge
open Spec

/-- C41: meaning of every code of `FpbRidVectorSizeSupported`. -/
theorem FpbRidVectorSizeSupported_values (b : U8) : FpbRidVectorSizeSupported.ofU8 b = FpbRidVectorSizeSupported.spec b := by
  revert b; decide +kernel

/-- C41: meaning of every code of `FpbMemLowVectorSizeSupported`. -/
theorem FpbMemLowVectorSizeSupported_values (b : U8) : FpbMemLowVectorSizeSupported.ofU8 b = FpbMemLowVectorSizeSupported.spec b := by
  revert b; decide +kernel

/-- C41: meaning of every code of `FpbMemHighVectorSizeSupported`. -/
theorem FpbMemHighVectorSizeSupported_values (b : U8) : FpbMemHighVectorSizeSupported.ofU8 b = FpbMemHighVectorSizeSupported.spec b := by
  revert b; decide +kernel

/-- C41: meaning of every code of `FpbRidVectorGranularity`. -/
theorem FpbRidVectorGranularity_values (b : U8) : FpbRidVectorGranularity.ofU8 b = FpbRidVectorGranularity.spec b := by
  revert b; decide +kernel

/-- C41: meaning of every code of `FpbMemLowVectorGranularity`. -/
theorem FpbMemLowVectorGranularity_values (b : U8) : FpbMemLowVectorGranularity.ofU8 b = FpbMemLowVectorGranularity.spec b := by
  revert b; decide +kernel

/-- C41: meaning of every code of `FpbMemHighVectorGranularity`. -/
theorem FpbMemHighVectorGranularity_values (b : U8) : FpbMemHighVectorGranularity.ofU8 b = FpbMemHighVectorGranularity.spec b := by
  revert b; decide +kernel

/-- C41: the `4` codes of `FpbVectorSelect` decode without panic, to their meanings. -/
theorem FpbVectorSelect_total {ε : Type} (n : Nat) :
    (FpbVectorSelect.ofU8 (BitVec.ofNat 8 (n % 4)) : Res ε FpbVectorSelect) =
      .ok (FpbVectorSelect.spec (BitVec.ofNat 8 (n % 4))) := by
  have h : n % 4 < 4 := Nat.mod_lt _ (by decide)
  generalize n % 4 = m at h
  interval_cases m <;> rfl

/-- C41: every field of `FpbCapabilities` is at its bit position. -/
theorem FpbCapabilities_layout (w : U32) :
    FpbCapabilities.ofU32 w = FpbCapabilities.spec w := by
  bits_simp [FpbCapabilities.ofU32, FpbCapabilities.spec, FpbMemHighVectorSizeSupported_values,
    FpbMemLowVectorSizeSupported_values, FpbRidVectorSizeSupported_values]

/-- C41: every field of `FpbVectorAccessControl` is at its bit position. -/
theorem FpbVectorAccessControl_layout {ε : Type} (w : U32) :
    (FpbVectorAccessControl.ofU32 w : Res ε FpbVectorAccessControl) = .ok (FpbVectorAccessControl.spec w) := by
  bits_simp [FpbVectorAccessControl.ofU32, FpbVectorAccessControl.spec, FpbVectorSelect_total]

private theorem and_mask {n : Nat} (w : BitVec n) (k : Nat) :
    w &&& (BitVec.allOnes n <<< k) = clearLow w k := by
  have h : clearLow w k = (w >>> k) <<< k := by
    apply BitVec.eq_of_toNat_eq
    simp [clearLow, BitVec.toNat_shiftLeft, BitVec.toNat_ushiftRight, Nat.shiftRight_eq_div_pow,
      Nat.shiftLeft_eq]
  rw [h]
  apply BitVec.eq_of_getLsbD_eq
  intro i hi
  simp only [BitVec.getLsbD_and, BitVec.getLsbD_shiftLeft, BitVec.getLsbD_allOnes,
    BitVec.getLsbD_ushiftRight, hi, decide_true, Bool.true_and]
  by_cases hk : i < k
  · simp [hk]
  · simp [hk, (by omega : k + (i - k) = i), (by omega : i - k < n)]

private theorem wrap_lt {n : Nat} (w : BitVec n) (k : Nat) (h : k < n) :
    wrappingShl w k = w <<< k := by rw [wrappingShl, Nat.mod_eq_of_lt h]

private theorem clearLow_zero {n : Nat} (w : BitVec n) : clearLow w 0 = w := by
  apply BitVec.eq_of_toNat_eq; simp [clearLow]

private theorem rid_start (w : U32) :
    (fld w 19 13 : U16) <<< 3 = cat (fld w 19 13 : BitVec 13) 0#3 := by bv_bits []

private theorem low_start (w : U32) :
    (fld w 20 12 : U32) <<< 20 = cat (fld w 20 12 : BitVec 12) 0#20 := by bv_bits []

private theorem high_start (w u : U32) :
    (fld w 28 4 : U64) <<< 28 ||| (u.setWidth 64 : U64) <<< 32
      = cat u (cat (fld w 28 4 : BitVec 4) 0#28 : U32) := by bv_bits []

private theorem gran_lt (w : U32) : (fld w 4 4 : U8).toNat < 16 := by
  simp only [fld, BitVec.toNat_setWidth, BitVec.extractLsb'_toNat]; omega

private theorem rid_eq (c1 c2 : U32) :
    FpbRidVectorControl.new c1 c2 =
      { fpb_rid_decode_mechanism_enable := flag c1 0
        fpb_rid_vector_granularity := .spec (fld c1 4 4)
        fpb_rid_vector_start := ((fld c1 19 13 : U16) <<< 3) &&&
          wrappingShl (BitVec.allOnes 16) (3 + (fld c1 4 4 : U8).toNat)
        rid_secondary_start := fld c2 3 13 } := by
  bits_simp [FpbRidVectorControl.new, FpbRidVectorGranularity_values]

private theorem low_eq (w : U32) :
    FpbMemLowVectorControl.ofU32 w =
      { fpb_mem_low_decode_mechanism_enable := flag w 0
        fpb_mem_low_vector_granularity := .spec (fld w 4 4)
        fpb_mem_low_vector_start := ((fld w 20 12 : U32) <<< 20) &&&
          wrappingShl (BitVec.allOnes 32) (20 + (fld w 4 4 : U8).toNat) } := by
  bits_simp [FpbMemLowVectorControl.ofU32, FpbMemLowVectorGranularity_values]

private theorem high_eq (c1 c2 : U32) :
    FpbMemHighVectorControl.new c1 c2 =
      { fpb_mem_high_decode_mechanism_enable := flag c1 0
        fpb_mem_high_vector_granularity := .spec (fld c1 4 4)
        fpb_mem_high_vector_start := ((fld c1 28 4 : U64) <<< 28 ||| (c2.setWidth 64 : U64) <<< 32) &&&
          wrappingShl (BitVec.allOnes 64) (28 + (fld c1 4 4 : U8).toNat) } := by
  bits_simp [FpbMemHighVectorControl.new, FpbMemHighVectorGranularity_values]

/-- C41: RID vector control, for every granularity below 13 (all defined ones).  Missing: 13 to 15,
where `fpb_rid_wraps` shows the claim false. -/
theorem FpbRidVectorControl_layout_partial (c1 c2 : U32) (h : (fld c1 4 4 : U8).toNat < 13) :
    FpbRidVectorControl.new c1 c2 = FpbRidVectorControl.spec c1 c2 := by
  rw [rid_eq, wrap_lt _ _ (by omega), and_mask, rid_start]; rfl

/-- C41: with granularity code 13 or more the shift amount wraps modulo 16 and low bits that should be
cleared are kept. -/
theorem fpb_rid_wraps (c1 c2 : U32) (h : 13 ≤ (fld c1 4 4 : U8).toNat) :
    (FpbRidVectorControl.new c1 c2).fpb_rid_vector_start =
        clearLow (cat (fld c1 19 13 : BitVec 13) 0#3) ((fld c1 4 4 : U8).toNat - 13)
      ∧ (FpbRidVectorControl.spec c1 c2).fpb_rid_vector_start = 0 := by
  have hg := gran_lt c1
  constructor
  · rw [rid_eq]
    simp only [wrappingShl, rid_start]
    rw [and_mask]
    congr 1
    omega
  · simp only [FpbRidVectorControl.spec, clearLow]
    have hd : ∀ v : U16, v.toNat / 2 ^ (3 + (fld c1 4 4 : U8).toNat) = 0 := by
      intro v
      refine Nat.div_eq_of_lt (Nat.lt_of_lt_of_le v.isLt ?_)
      exact Nat.pow_le_pow_right (by decide) (by omega)
    simp [hd]

/-- C41: so the claim is false for some register value. -/
theorem fpb_rid_not_masked :
    ∃ c1 c2, FpbRidVectorControl.new c1 c2 ≠ FpbRidVectorControl.spec c1 c2 :=
  ⟨0x000800d0, 0, by decide +kernel⟩

/-- C41: MEM low vector control, for every granularity below 12 (all defined ones).  Missing: 12 to
15, where `fpb_mem_low_wraps` shows the claim false. -/
theorem FpbMemLowVectorControl_layout_partial (w : U32) (h : (fld w 4 4 : U8).toNat < 12) :
    FpbMemLowVectorControl.ofU32 w = FpbMemLowVectorControl.spec w := by
  rw [low_eq, wrap_lt _ _ (by omega), and_mask, low_start]; rfl

/-- C41: with granularity code 12 or more the shift amount wraps modulo 32. -/
theorem fpb_mem_low_wraps (w : U32) (h : 12 ≤ (fld w 4 4 : U8).toNat) :
    (FpbMemLowVectorControl.ofU32 w).fpb_mem_low_vector_start =
        clearLow (cat (fld w 20 12 : BitVec 12) 0#20) ((fld w 4 4 : U8).toNat - 12)
      ∧ (FpbMemLowVectorControl.spec w).fpb_mem_low_vector_start = 0 := by
  have hg := gran_lt w
  constructor
  · rw [low_eq]
    simp only [wrappingShl, low_start]
    rw [and_mask]
    congr 1
    omega
  · simp only [FpbMemLowVectorControl.spec, clearLow]
    have hd : ∀ v : U32, v.toNat / 2 ^ (20 + (fld w 4 4 : U8).toNat) = 0 := by
      intro v
      refine Nat.div_eq_of_lt (Nat.lt_of_lt_of_le v.isLt ?_)
      exact Nat.pow_le_pow_right (by decide) (by omega)
    simp [hd]

/-- C41: so the claim is false for some register value. -/
theorem fpb_mem_low_not_masked :
    ∃ w, FpbMemLowVectorControl.ofU32 w ≠ FpbMemLowVectorControl.spec w :=
  ⟨0x001000c0, by decide +kernel⟩

/-- C41: MEM high vector control, for every granularity. -/
theorem FpbMemHighVectorControl_layout (c1 c2 : U32) :
    FpbMemHighVectorControl.new c1 c2 = FpbMemHighVectorControl.spec c1 c2 := by
  have := gran_lt c1
  rw [high_eq, wrap_lt _ _ (by omega), and_mask, high_start]; rfl

/-- C41: RID vector control, exactly, for every granularity. -/
theorem FpbRidVectorControl_read (c1 c2 : U32) :
    FpbRidVectorControl.new c1 c2 = FpbRidVectorControl.read c1 c2 := by
  rw [rid_eq, wrappingShl, and_mask, rid_start]; rfl

/-- C41: MEM low vector control, exactly, for every granularity. -/
theorem FpbMemLowVectorControl_read (w : U32) :
    FpbMemLowVectorControl.ofU32 w = FpbMemLowVectorControl.read w := by
  rw [low_eq, wrappingShl, and_mask, low_start]; rfl

/-- C41: decoding never panics and succeeds exactly from 34 bytes on, each register read at its
offset; the vector controls are those of the theorems above. -/
theorem FlatteningPortalBridge_registers (d : Bytes) :
    FlatteningPortalBridge.ofBytes d =
      if 34 ≤ d.length then .ok { FlatteningPortalBridge.spec d with
        fpb_rid_vector_control := .read (rd32 d 6) (rd32 d 10)
        fpb_mem_low_vector_control := .read (rd32 d 14) }
      else .err ⟨"Flattening Portal Bridge", 34⟩ := by
  unfold FlatteningPortalBridge.ofBytes
  by_cases h : 34 ≤ d.length <;>
  bytes_len [FpbVectorAccessControl_layout, FpbCapabilities_layout, FpbMemHighVectorControl_layout,
    FpbRidVectorControl_read, FpbMemLowVectorControl_read, FlatteningPortalBridge.spec]

/-- C41: the whole capability against its layout, for granularities that do not wrap (see
`fpb_rid_wraps`, `fpb_mem_low_wraps`). -/
theorem FlatteningPortalBridge_bytes_partial (d : Bytes)
    (hr : (fld (rd32 d 6) 4 4 : U8).toNat < 13) (hm : (fld (rd32 d 14) 4 4 : U8).toNat < 12) :
    FlatteningPortalBridge.ofBytes d =
      if 34 ≤ d.length then .ok (FlatteningPortalBridge.spec d)
      else .err ⟨"Flattening Portal Bridge", 34⟩ := by
  rw [FlatteningPortalBridge_registers, ← FpbRidVectorControl_read, ← FpbMemLowVectorControl_read,
    FpbRidVectorControl_layout_partial _ _ hr,
    FpbMemLowVectorControl_layout_partial _ hm]
  rfl

example : (FpbRidVectorControl.new 0xfff80051 0x00001238).fpb_rid_vector_start = 0xff00 := by
  decide +kernel
example : (fld (0xfff80051 : U32) 4 4 : U8).toNat < 13 := by decide
example : (FpbMemHighVectorControl.new 0xf0000071 0x00000012).fpb_mem_high_vector_start =
    0x1000000000 := by decide +kernel

/-! ### C76 -/

theorem FpbRidVectorSizeSupported_bits3 {n : Nat} (a b : BitVec n) (lo : Nat) :
    FpbRidVectorSizeSupported.spec (fld a lo 3) = FpbRidVectorSizeSupported.spec (fld b lo 3) ↔
      ∀ i, i < 3 → a.getLsbD (lo + i) = b.getLsbD (lo + i) :=
  code_eq_iff _ 3 (by decide) (by decide +kernel) a b lo

theorem FpbMemLowVectorSizeSupported_bits3 {n : Nat} (a b : BitVec n) (lo : Nat) :
    FpbMemLowVectorSizeSupported.spec (fld a lo 3) = FpbMemLowVectorSizeSupported.spec (fld b lo 3) ↔
      ∀ i, i < 3 → a.getLsbD (lo + i) = b.getLsbD (lo + i) :=
  code_eq_iff _ 3 (by decide) (by decide +kernel) a b lo

theorem FpbMemHighVectorSizeSupported_bits3 {n : Nat} (a b : BitVec n) (lo : Nat) :
    FpbMemHighVectorSizeSupported.spec (fld a lo 3) = FpbMemHighVectorSizeSupported.spec (fld b lo 3) ↔
      ∀ i, i < 3 → a.getLsbD (lo + i) = b.getLsbD (lo + i) :=
  code_eq_iff _ 3 (by decide) (by decide +kernel) a b lo

theorem FpbVectorSelect_bits2 {n : Nat} (a b : BitVec n) (lo : Nat) :
    FpbVectorSelect.spec (fld a lo 2) = FpbVectorSelect.spec (fld b lo 2) ↔
      ∀ i, i < 2 → a.getLsbD (lo + i) = b.getLsbD (lo + i) :=
  code_eq_iff _ 2 (by decide) (by decide +kernel) a b lo

/-- C76: `FpbCapabilities` registers decode to the same value exactly when they agree in bits
0-10, 16-18, 24-26. -/
theorem FpbCapabilities_reads (a b : U32) :
    FpbCapabilities.ofU32 a = FpbCapabilities.ofU32 b ↔
      a &&& 0x070707ff#32 = b &&& 0x070707ff#32 := by
  reads [FpbCapabilities_layout, FpbCapabilities.spec, FpbCapabilities.mk.injEq,
    FpbRidVectorSizeSupported_bits3, FpbMemLowVectorSizeSupported_bits3,
    FpbMemHighVectorSizeSupported_bits3]

/-- C76: `FpbVectorAccessControl` registers decode to the same value exactly when they agree in
bits 0-7, 14-15. -/
theorem FpbVectorAccessControl_reads {ε : Type} (a b : U32) :
    (FpbVectorAccessControl.ofU32 a : Res ε FpbVectorAccessControl) = FpbVectorAccessControl.ofU32 b ↔
      a &&& 0x0000c0ff#32 = b &&& 0x0000c0ff#32 := by
  reads [FpbVectorAccessControl_layout, FpbVectorAccessControl.spec,
    FpbVectorAccessControl.mk.injEq, FpbVectorSelect_bits2]

/-- A reserved bit makes no difference to `FpbCapabilities`, a defined one does. -/
example : FpbCapabilities.ofU32 0x5bc8fbbc = FpbCapabilities.ofU32 0xdbc8fbbc ∧
    FpbCapabilities.ofU32 0x5bc8fbbc ≠ FpbCapabilities.ofU32 0x5bc8fabc :=
  ⟨(FpbCapabilities_reads _ _).2 (by decide), fun h => absurd ((FpbCapabilities_reads _ _).1 h) (by decide)⟩

end Pcics.FlatteningPortalBridge
