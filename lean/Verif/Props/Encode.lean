import Verif.Props.Header
import Verif.Props.Cap.AcceleratedGraphicsPort
import Verif.Props.Cap.Hypertransport
import Verif.Props.Cap.PciExpress
import Verif.Props.Cap.PowerManagementInterface
import Verif.Props.Ext.ComputeExpressLink
import Verif.Props.Ext.L1PmSubstates
import Verif.Props.Ext.LatencyToleranceReporting
import Verif.Props.Ext.MultifunctionVirtualChannel
import Verif.Props.Ext.RootComplexLinkDeclaration
import Verif.Props.Ext.VirtualChannel
import Verif.Lemmas.Bv
/- C89: values made by hand (every field of these types is public), encoded and decoded again -/

namespace Pcics.Encode
open Spec

/-! ### Fields that fit -/

/-- A field cut to its low `k` bits is unchanged exactly when it fits in `k` bits. -/
theorem fld_eq_self_iff {n : Nat} (x : BitVec n) (k : Nat) :
    (fld x 0 k : BitVec n) = x ↔ x.toNat < 2 ^ k := by
  have h : (fld x 0 k : BitVec n).toNat = x.toNat % 2 ^ k := by
    simp only [fld, BitVec.toNat_setWidth, BitVec.extractLsb'_toNat, Nat.shiftRight_zero]
    exact Nat.mod_eq_of_lt (Nat.lt_of_le_of_lt (Nat.mod_le _ _) x.isLt)
  constructor
  · intro e
    have := congrArg BitVec.toNat e
    rw [h] at this
    rw [← this]
    exact Nat.mod_lt _ (Nat.two_pow_pos k)
  · intro e
    apply BitVec.eq_of_toNat_eq
    rw [h, Nat.mod_eq_of_lt e]

theorem fits {n : Nat} (x : BitVec n) (k m : Nat) (h : m = 2 ^ k := by rfl) :
    x.toNat < m ↔ (fld x 0 k : BitVec n) = x := by
  rw [h, fld_eq_self_iff]

/-! ### Header -/

/-- C89: `BuiltInSelfTest`: the completion code is cut to 4 bits, nothing else changes. -/
theorem BuiltInSelfTest_redecode (b : Header.BuiltInSelfTest) :
    Header.BuiltInSelfTest.ofU8 b.toU8 = { b with completion_code := fld b.completion_code 0 4 } := by
  obtain ⟨c, r, v⟩ := b
  cases c <;> cases r <;> (revert v; decide +kernel)

/-- C89: `BuiltInSelfTest` is restored exactly when the completion code fits in 4 bits. -/
theorem BuiltInSelfTest_restored (b : Header.BuiltInSelfTest) :
    Header.BuiltInSelfTest.ofU8 b.toU8 = b ↔ b.completion_code.toNat < 16 := by
  rw [BuiltInSelfTest_redecode, fits _ 4 16]
  obtain ⟨c, r, v⟩ := b
  simp

example : Header.BuiltInSelfTest.ofU8 (Header.BuiltInSelfTest.toU8 ⟨true, false, 0x1f⟩) =
    ⟨true, false, 0x0f⟩ := by decide +kernel

/-- C89: `ExpansionRom`, exactly: the three fields are put over each other without being cut, so
that the low bits of the address are added to `is_enabled` and `reserved` and the high bits of
`reserved` to the address. -/
theorem ExpansionRom_redecode (r : Header.ExpansionRom) :
    Header.ExpansionRom.ofU32 r.toU32 =
      { is_enabled := r.is_enabled || flag r.address 0
        reserved := fld r.reserved 0 10 ||| fld r.address 1 10
        address := fld r.address 11 21 <<< 11 ||| fld r.reserved 10 6 <<< 11 } := by
  rw [Header.ExpansionRom_layout]
  obtain ⟨a, v, e⟩ := r
  simp only [Header.ExpansionRom.spec, Header.ExpansionRom.toU32, Header.ExpansionRom.mk.injEq]
  refine ⟨?_, ?_, ?_⟩
  · bv_bits []
  · bv_bits []
    all_goals exact Bool.or_comm _ _
  · cases e <;> simp [flag, ofNat_b2n, -BitVec.getLsbD_eq_getElem]

theorem lt_iff_bits {n : Nat} (x : BitVec n) (k : Nat) :
    x.toNat < 2 ^ k ↔ ∀ i, k ≤ i → x.getLsbD i = false := by
  rw [← fld_eq_self_iff]
  constructor
  · intro e i hi
    rw [← e, getLsbD_fld]
    simp [Nat.not_lt.2 hi]
  · intro e
    apply BitVec.eq_of_getLsbD_eq
    intro i hi
    rw [getLsbD_fld]
    by_cases h : i < k
    · simp [h, hi, -BitVec.getLsbD_eq_getElem]
    · simp [h, e i (Nat.le_of_not_lt h), -BitVec.getLsbD_eq_getElem]

theorem mod_iff_bits {n : Nat} (x : BitVec n) (k : Nat) :
    x.toNat % 2 ^ k = 0 ↔ ∀ i, i < k → x.getLsbD i = false := by
  constructor
  · intro e i hi
    have := Nat.testBit_mod_two_pow x.toNat k i
    rw [e] at this
    simpa [hi, BitVec.getLsbD] using this.symm
  · intro e
    apply Nat.eq_of_testBit_eq
    intro i
    rw [Nat.testBit_mod_two_pow, Nat.zero_testBit]
    by_cases h : i < k
    · have := e i h
      rw [BitVec.getLsbD] at this
      simp [this]
    · simp [h]

/-- C89: `ExpansionRom` is restored exactly when the address is a multiple of 2048 and `reserved`
fits in 10 bits. -/
theorem ExpansionRom_restored_partial (r : Header.ExpansionRom) :
    Header.ExpansionRom.ofU32 r.toU32 = r ↔
      r.address.toNat % 2048 = 0 ∧ r.reserved.toNat < 1024 := by
  rw [ExpansionRom_redecode, show 2048 = 2 ^ 11 from rfl, show 1024 = 2 ^ 10 from rfl,
    mod_iff_bits, lt_iff_bits]
  obtain ⟨a, v, e⟩ := r
  simp only [Header.ExpansionRom.mk.injEq]
  constructor
  · rintro ⟨ha, hv, -⟩
    constructor
    · intro i hi
      rw [← ha]
      simp [hi, -BitVec.getLsbD_eq_getElem]
    · intro i hi
      rw [← hv]
      simp [getLsbD_fld, Nat.not_lt.2 hi, -BitVec.getLsbD_eq_getElem]
  · rintro ⟨ha, hv⟩
    have h0 := ha 0 (by decide)
    have hb : ∀ k, k < 11 → a.getLsbD k = false := ha
    refine ⟨?_, ?_, ?_⟩
    · apply BitVec.eq_of_getLsbD_eq
      intro i hi
      by_cases h : i < 11
      · simp [h, ha i h, -BitVec.getLsbD_eq_getElem]
      · have e1 : 11 + (i - 11) = i := by omega
        have e2 : v.getLsbD (10 + (i - 11)) = false := hv _ (by omega)
        simp [h, hi, getLsbD_fld, e1, e2, show i - 11 < 21 by omega, show i - 11 < 32 by omega,
          -BitVec.getLsbD_eq_getElem]
    · apply BitVec.eq_of_getLsbD_eq
      intro i hi
      by_cases h : i < 10
      · simp [h, hi, getLsbD_fld, ha (1 + i) (by omega), -BitVec.getLsbD_eq_getElem]
      · simp [h, getLsbD_fld, hv i (by omega), -BitVec.getLsbD_eq_getElem]
    · simp [flag, h0, -BitVec.getLsbD_eq_getElem]

/-- C89 (the code violates it): a too wide `reserved` field changes the address of the ROM, and an
address that is not a multiple of 2048 enables it. -/
theorem ExpansionRom_spills :
    Header.ExpansionRom.ofU32 (Header.ExpansionRom.toU32
      { is_enabled := false, reserved := 0x400, address := 0xfe000000 }) =
      { is_enabled := false, reserved := 0, address := 0xfe000800 } ∧
    Header.ExpansionRom.ofU32 (Header.ExpansionRom.toU32
      { is_enabled := false, reserved := 0, address := 0xfe000001 }) =
      { is_enabled := true, reserved := 0, address := 0xfe000000 } := by
  decide +kernel

example : Header.ExpansionRom.ofU32 (Header.ExpansionRom.toU32
    { is_enabled := true, reserved := 0x3ff, address := 0xfe000800 }) =
    { is_enabled := true, reserved := 0x3ff, address := 0xfe000800 } :=
  (ExpansionRom_restored_partial _).2 (by decide)

/-- C89 (the code violates it): a 32-bit I/O window of a CardBus bridge comes back as a 16-bit one,
whatever its addresses; a 16-bit window comes back with its addresses aligned to 4. -/
theorem IoAccessAddressRange_redecode_partial (b l : U32) (b' l' : U16) :
    (∃ p, (Header.IoAccessAddressRange.Addr32Bit b l).toU16s = some p ∧
      Header.IoAccessAddressRange.ofU16s p.1 p.2.1 p.2.2.1 p.2.2.2 =
        .Addr16Bit (fld b 2 14 <<< 2) (fld l 2 14 <<< 2)) ∧
    (∃ p, (Header.IoAccessAddressRange.Addr16Bit b' l').toU16s = some p ∧
      Header.IoAccessAddressRange.ofU16s p.1 p.2.1 p.2.2.1 p.2.2.2 =
        .Addr16Bit (fld b' 2 14 <<< 2) (fld l' 2 14 <<< 2)) := by
  have h0 : ∀ x : U16, (fld (x <<< 2) 0 2 : U8) = 0 := by intro x; bv_bits []
  have h1 : ∀ x : U16, (fld (x <<< 2) 2 14 : U16) <<< 2 = x <<< 2 := by intro x; bv_bits []
  have h2 : ∀ x : U16, x &&& ~~~3#16 = fld x 2 14 <<< 2 := by intro x; bv_bits []
  have h3 : ∀ x : U32, (fld (x.setWidth 16 : U16) 2 14 : U16) = fld x 2 14 := by
    intro x; bv_bits []
  refine ⟨⟨_, rfl, ?_⟩, ⟨_, rfl, ?_⟩⟩
  · rw [Header.IoAccessAddressRange_layout]
    simp only [Header.IoAccessAddressRange.spec, pick, h0, h1, h2, h3, if_true]
  · rw [Header.IoAccessAddressRange_layout]
    simp only [Header.IoAccessAddressRange.spec, pick, h0, h1, h2, if_true]

/-! ### Latencies and L1 PM Substates -/

/-- C89: `MaxLatency`, exactly: the scale is lost, and bits 12:10 of the value come back as the
scale. -/
theorem MaxLatency_redecode (m : LatencyToleranceReporting.MaxLatency) :
    LatencyToleranceReporting.MaxLatency.ofU16 m.toU16 =
      { value := fld m.value 0 10, scale := fld m.value 10 3 } := by
  rw [LatencyToleranceReporting.MaxLatency_layout]
  obtain ⟨v, s⟩ := m
  simp only [LatencyToleranceReporting.MaxLatency.spec, LatencyToleranceReporting.MaxLatency.toU16,
    LatencyToleranceReporting.MaxLatency.mk.injEq]
  constructor <;> bv_bits []

/-- C89: `MaxLatency` is restored exactly for scale 0 and values that fit in 10 bits. -/
theorem MaxLatency_restored_partial (m : LatencyToleranceReporting.MaxLatency) :
    LatencyToleranceReporting.MaxLatency.ofU16 m.toU16 = m ↔
      m.scale = 0 ∧ m.value.toNat < 1024 := by
  rw [MaxLatency_redecode, show 1024 = 2 ^ 10 from rfl, ← fld_eq_self_iff]
  obtain ⟨v, s⟩ := m
  simp only [LatencyToleranceReporting.MaxLatency.mk.injEq]
  constructor
  · rintro ⟨hv, hs⟩
    refine ⟨?_, hv⟩
    rw [← hs, ← hv]
    bv_bits []
  · rintro ⟨hs, hv⟩
    refine ⟨hv, ?_⟩
    rw [hs, ← hv]
    bv_bits []

/-- C89: L1 PM Substates, exactly: whatever bytes have the encoded registers of `x` as their first
three dwords, decoding gives the fields of `x`, cut to their widths, except that bits 15:13 of a
threshold value are added to the threshold scale. -/
theorem L1PmSubstates_redecode (x : L1PmSubstates.L1PmSubstates) (d : Bytes) (hd : 12 ≤ d.length)
    (h0 : rd32 d 0 = x.l1_pm_substates_capabilities.toU32)
    (h1 : rd32 d 4 = x.l1_pm_substates_control_1.toU32)
    (h2 : rd32 d 8 = x.l1_pm_substates_control_2.toU32) :
    L1PmSubstates.L1PmSubstates.ofBytes d = .ok
      { l1_pm_substates_capabilities := { x.l1_pm_substates_capabilities with
          port_t_power_on := { x.l1_pm_substates_capabilities.port_t_power_on with
            value := fld x.l1_pm_substates_capabilities.port_t_power_on.value 0 5 } }
        l1_pm_substates_control_1 := { x.l1_pm_substates_control_1 with
          ltr_l1_2_threshold :=
            { value := fld x.l1_pm_substates_control_1.ltr_l1_2_threshold.value 0 10
              scale := fld x.l1_pm_substates_control_1.ltr_l1_2_threshold.scale 0 3
                ||| fld x.l1_pm_substates_control_1.ltr_l1_2_threshold.value 13 3 } }
        l1_pm_substates_control_2 :=
          { t_power_on := { x.l1_pm_substates_control_2.t_power_on with
              value := fld x.l1_pm_substates_control_2.t_power_on.value 0 5 } } } := by
  rw [L1PmSubstates.L1PmSubstates_bytes, if_pos hd]
  obtain ⟨⟨c1, c2, c3, c4, c5, ct, ⟨pv, ps⟩⟩, ⟨e1, e2, e3, e4, et, ⟨lv, ls⟩⟩, ⟨⟨qv, qs⟩⟩⟩ := x
  have hs : ∀ s : L1PmSubstates.PortTPowerOnScale,
      L1PmSubstates.PortTPowerOnScale.spec s.toU8 = s := by intro s; cases s <;> rfl
  have hs2 : ∀ s : L1PmSubstates.PortTPowerOnScale, ∀ i, 2 ≤ i → s.toU8.getLsbD i = false := by
    intro s i hi
    exact (lt_iff_bits s.toU8 2).1 (by cases s <;> decide) i hi
  simp only at h0 h1 h2
  simp only [L1PmSubstates.L1PmSubstates.spec, h0, h1, h2,
    L1PmSubstates.L1PmSubstatesCapabilities.toU32, L1PmSubstates.L1PmSubstatesControl1.toU32,
    L1PmSubstates.L1PmSubstatesControl2.toU32, L1PmSubstates.PortTPowerOn.toU8,
    LatencyToleranceReporting.MaxLatency.toU16]
  have a1 : ∀ (b0 b1 b3 v : U8) (s : L1PmSubstates.PortTPowerOnScale),
      (fld (u32le b0 b1 (v <<< 3 ||| s.toU8) b3) 16 2 : U8) = s.toU8 := by
    intro b0 b1 b3 v s
    bv_bits [getLsbD_u32le, hs2 s]
  have a2 : ∀ (b0 b1 b3 v : U8) (s : L1PmSubstates.PortTPowerOnScale),
      (fld (u32le b0 b1 (v <<< 3 ||| s.toU8) b3) 19 5 : U8) = fld v 0 5 := by
    intro b0 b1 b3 v s
    bv_bits [getLsbD_u32le, hs2 s]
  have a3 : ∀ (b1 b2 b3 v : U8) (s : L1PmSubstates.PortTPowerOnScale),
      (fld (u32le (v <<< 3 ||| s.toU8) b1 b2 b3) 0 2 : U8) = s.toU8 := by
    intro b1 b2 b3 v s
    bv_bits [getLsbD_u32le, hs2 s]
  have a4 : ∀ (b1 b2 b3 v : U8) (s : L1PmSubstates.PortTPowerOnScale),
      (fld (u32le (v <<< 3 ||| s.toU8) b1 b2 b3) 3 5 : U8) = fld v 0 5 := by
    intro b1 b2 b3 v s
    bv_bits [getLsbD_u32le, hs2 s]
  have a5 : ∀ (b0 b1 b2 b3 : U8), (fld (u32le b0 b1 b2 b3) 8 8 : U8) = b1 := by
    intros; bv_bits [getLsbD_u32le]
  have a6 : ∀ (b0 b1 : U8) (t : U16), (fld (u32le b0 b1 (t.setWidth 8) ((t >>> 8).setWidth 8)) 16 10 : U16)
      = fld t 0 10 := by intros; bv_bits [getLsbD_u32le]
  have a7 : ∀ (b0 b1 : U8) (t : U16), (fld (u32le b0 b1 (t.setWidth 8) ((t >>> 8).setWidth 8)) 29 3 : U8)
      = fld t 13 3 := by intros; bv_bits [getLsbD_u32le]
  have a8 : (fld (ls.setWidth 16 <<< 13 ||| lv) 0 10 : U16) = fld lv 0 10 := by bv_bits []
  have a9 : (fld (ls.setWidth 16 <<< 13 ||| lv) 13 3 : U8) = fld ls 0 3 ||| fld lv 13 3 := by
    bv_bits []
  simp only [a1, a2, a3, a4, a5, a6, a7, a8, a9, hs]
  simp [flag, getLsbD_u32le, ofNat_b2n, getLsbD_cond, -BitVec.getLsbD_eq_getElem]

/-- C89: L1 PM Substates are restored exactly when the T_POWER_ON values fit in 5 bits, the threshold
value in 10 and the threshold scale in 3. -/
theorem L1PmSubstates_restored_partial (x : L1PmSubstates.L1PmSubstates) (d : Bytes) (hd : 12 ≤ d.length)
    (h0 : rd32 d 0 = x.l1_pm_substates_capabilities.toU32)
    (h1 : rd32 d 4 = x.l1_pm_substates_control_1.toU32)
    (h2 : rd32 d 8 = x.l1_pm_substates_control_2.toU32) :
    L1PmSubstates.L1PmSubstates.ofBytes d = .ok x ↔
      x.l1_pm_substates_capabilities.port_t_power_on.value.toNat < 32 ∧
      x.l1_pm_substates_control_1.ltr_l1_2_threshold.value.toNat < 1024 ∧
      x.l1_pm_substates_control_1.ltr_l1_2_threshold.scale.toNat < 8 ∧
      x.l1_pm_substates_control_2.t_power_on.value.toNat < 32 := by
  rw [L1PmSubstates_redecode x d hd h0 h1 h2, fits _ 5 32, fits _ 10 1024, fits _ 3 8,
    fits _ 5 32]
  obtain ⟨⟨c1, c2, c3, c4, c5, ct, ⟨pv, ps⟩⟩, ⟨e1, e2, e3, e4, et, ⟨lv, ls⟩⟩, ⟨⟨qv, qs⟩⟩⟩ := x
  have hz : (fld lv 0 10 : U16) = lv → (fld lv 13 3 : U8) = 0 := by
    intro h; rw [← h]; bv_bits []
  simp only [Res.ok.injEq, L1PmSubstates.L1PmSubstates.mk.injEq,
    L1PmSubstates.L1PmSubstatesCapabilities.mk.injEq, L1PmSubstates.L1PmSubstatesControl1.mk.injEq,
    L1PmSubstates.L1PmSubstatesControl2.mk.injEq, L1PmSubstates.PortTPowerOn.mk.injEq,
    LatencyToleranceReporting.MaxLatency.mk.injEq, true_and, and_true]
  constructor
  · rintro ⟨h1, ⟨h2, h3⟩, h4⟩
    rw [hz h2] at h3
    exact ⟨h1, h2, by simpa using h3, h4⟩
  · rintro ⟨h1, h2, h3, h4⟩
    refine ⟨h1, ⟨h2, ?_⟩, h4⟩
    rw [hz h2]
    simpa using h3

/-- A value to encode, all fields of which fit. -/
def l1Sample : L1PmSubstates.L1PmSubstates :=
  { l1_pm_substates_capabilities := {
      pci_pm_l1_2_supported := true, pci_pm_l1_1_supported := false, aspm_l1_2_supported := true,
      aspm_l1_1_supported := false, l1_pm_substates_supported := true,
      port_common_mode_restore_time := 10, port_t_power_on := { value := 5, scale := .Time10us } }
    l1_pm_substates_control_1 := {
      pci_pm_l1_2_enable := true, pci_pm_l1_1_enable := true, aspm_l1_2_enable := true,
      aspm_l1_1_enable := true, common_mode_restore_time := 0,
      ltr_l1_2_threshold := { value := 1023, scale := 2 } }
    l1_pm_substates_control_2 := { t_power_on := { value := 31, scale := .Time100us } } }

example : l1Sample.l1_pm_substates_capabilities.toU32 = 0x00290a15 ∧
    l1Sample.l1_pm_substates_control_1.toU32 = 0x43ff000f ∧
    l1Sample.l1_pm_substates_control_2.toU32 = 0xfa := by decide +kernel

example : L1PmSubstates.L1PmSubstates.ofBytes
    [0x15, 0x0a, 0x29, 0x00, 0x0f, 0x00, 0xff, 0x43, 0xfa, 0, 0, 0] = .ok l1Sample :=
  (L1PmSubstates_restored_partial l1Sample _ (by decide) (by decide +kernel) (by decide +kernel)
    (by decide +kernel)).2 (by decide)

/-- C89 (the code violates it): a too wide threshold value changes the threshold scale. -/
theorem L1PmSubstates_spills :
    ∃ x : L1PmSubstates.L1PmSubstates, x.l1_pm_substates_control_1.ltr_l1_2_threshold = ⟨0x2000, 0⟩ ∧
      ∀ d : Bytes, 12 ≤ d.length → rd32 d 0 = x.l1_pm_substates_capabilities.toU32 →
        rd32 d 4 = x.l1_pm_substates_control_1.toU32 →
        rd32 d 8 = x.l1_pm_substates_control_2.toU32 →
        ∃ y, L1PmSubstates.L1PmSubstates.ofBytes d = .ok y ∧
          y.l1_pm_substates_control_1.ltr_l1_2_threshold = ⟨0, 1⟩ := by
  refine ⟨{ l1Sample with l1_pm_substates_control_1 :=
    { l1Sample.l1_pm_substates_control_1 with ltr_l1_2_threshold := ⟨0x2000, 0⟩ } }, rfl, ?_⟩
  intro d hd h0 h1 h2
  exact ⟨_, L1PmSubstates_redecode _ d hd h0 h1 h2, by decide +kernel⟩

/-! ### Multi-Function Virtual Channel -/

section
open MultifunctionVirtualChannel

/-- C89: `VcResourceCapability`: the reserved bits of the arbitration capability are cut to 2 bits and
the maximum time slots to 7, nothing else changes. -/
theorem VcResourceCapability_redecode (c : VcResourceCapability) :
    VcResourceCapability.ofU32 c.toU32 =
      { function_arbitration_capability := { c.function_arbitration_capability with
          reserved := fld c.function_arbitration_capability.reserved 0 2 }
        maximum_time_slots := fld c.maximum_time_slots 0 7
        function_arbitration_table_offset := c.function_arbitration_table_offset } := by
  rw [VcResourceCapability_layout]
  obtain ⟨⟨f0, f1, f2, f3, f4, f5, v⟩, m, o⟩ := c
  simp only [VcResourceCapability.spec, VcResourceCapability.toU32,
    FunctionArbitrationCapability.toU8, VcResourceCapability.mk.injEq,
    FunctionArbitrationCapability.mk.injEq]
  refine ⟨⟨?_, ?_, ?_, ?_, ?_, ?_, ?_⟩, ?_, ?_⟩
  iterate 6 simp [flag, getLsbD_u32le, ofNat_b2n, getLsbD_cond, -BitVec.getLsbD_eq_getElem]
  iterate 3 bv_bits [getLsbD_u32le]

/-- C89: `VcResourceCapability` is restored exactly when its reserved bits fit in 2 bits and the
maximum time slots in 7. -/
theorem VcResourceCapability_restored (c : VcResourceCapability) :
    VcResourceCapability.ofU32 c.toU32 = c ↔
      c.function_arbitration_capability.reserved.toNat < 4 ∧ c.maximum_time_slots.toNat < 128 := by
  rw [VcResourceCapability_redecode, fits _ 2 4, fits _ 7 128]
  obtain ⟨⟨f0, f1, f2, f3, f4, f5, v⟩, m, o⟩ := c
  simp

/-- C89: `VcResourceControl`, exactly: the select is cut to 3 bits, as is the VC ID, but bit 7 of the
VC ID is added to `vc_enable`. -/
theorem VcResourceControl_redecode (c : VcResourceControl) :
    VcResourceControl.ofU32 c.toU32 =
      { c with
        function_arbitration_select :=
          FunctionArbitrationSelect.ofU8 (fld c.function_arbitration_select.toU8 0 3)
        vc_id := fld c.vc_id 0 3
        vc_enable := c.vc_enable || flag c.vc_id 7 } := by
  rw [VcResourceControl_layout, FunctionArbitrationSelect_values]
  obtain ⟨m, l, s, v, e⟩ := c
  simp only [VcResourceControl.spec, VcResourceControl.toU32]
  have a1 : (fld (u32le m 0 (BitVec.ofNat 8 (b2n l) ||| s.toU8 <<< 1)
      (v ||| BitVec.ofNat 8 (b2n e) <<< 7)) 17 3 : U8) = fld s.toU8 0 3 := by
    bv_bits [getLsbD_u32le]
  rw [a1]
  simp only [VcResourceControl.mk.injEq, true_and]
  refine ⟨?_, ?_, ?_, ?_⟩
  · bv_bits [getLsbD_u32le]
  · simp [flag, getLsbD_u32le, ofNat_b2n, getLsbD_cond, -BitVec.getLsbD_eq_getElem]
  · bv_bits [getLsbD_u32le]
  · simp [flag, getLsbD_u32le, ofNat_b2n, getLsbD_cond, -BitVec.getLsbD_eq_getElem, Bool.or_comm]

theorem select_restored (s : FunctionArbitrationSelect) :
    FunctionArbitrationSelect.ofU8 (fld s.toU8 0 3) = s ↔
      ∀ v, s = .Reserved v → v = 6 ∨ v = 7 := by
  cases s
  case Reserved v =>
    simp only [FunctionArbitrationSelect.Reserved.injEq, forall_eq']
    revert v; decide +kernel
  all_goals simp [FunctionArbitrationSelect.toU8, fld, FunctionArbitrationSelect.ofU8]

/-- C89: `VcResourceControl` is restored exactly when the VC ID fits in 3 bits and a reserved select
is one of the codes 6 and 7. -/
theorem VcResourceControl_restored_partial (c : VcResourceControl) :
    VcResourceControl.ofU32 c.toU32 = c ↔
      (∀ v, c.function_arbitration_select = .Reserved v → v = 6 ∨ v = 7) ∧ c.vc_id.toNat < 8 := by
  rw [VcResourceControl_redecode, fits _ 3 8, ← select_restored]
  obtain ⟨m, l, s, v, e⟩ := c
  simp only [VcResourceControl.mk.injEq, true_and]
  constructor
  · rintro ⟨h1, h2, -⟩
    exact ⟨h1, h2⟩
  · rintro ⟨h1, h2⟩
    refine ⟨h1, h2, ?_⟩
    have : flag v 7 = false := by
      rw [← h2]; simp [flag, getLsbD_fld, -BitVec.getLsbD_eq_getElem]
    simp [this]

/-- C89 (the code violates it): a too wide VC ID enables the virtual channel. -/
theorem VcResourceControl_spills :
    VcResourceControl.ofU32 (VcResourceControl.toU32
      { tc_to_vc_map := 1, load_function_arbitration_table := false
        function_arbitration_select := .Wrr64phases, vc_id := 0x80, vc_enable := false }) =
      { tc_to_vc_map := 1, load_function_arbitration_table := false
        function_arbitration_select := .Wrr64phases, vc_id := 0, vc_enable := true } := by
  decide +kernel

/-- C89: `VcResourceStatus` is always restored. -/
theorem VcResourceStatus_restored (s : VcResourceStatus) : VcResourceStatus.ofU16 s.toU16 = s := by
  obtain ⟨a, b⟩ := s
  cases a <;> cases b <;> decide +kernel

/-- C89: a whole VC resource: each register is given back as above, and the arbitration table, which
is not among the 12 bytes, is lost. -/
theorem ExtendedVirtualChannel_redecode (e : ExtendedVirtualChannel) :
    ExtendedVirtualChannel.ofBytes e.toBytes = some
      { vc_resource_capability := .ofU32 e.vc_resource_capability.toU32
        vc_resource_control := .ofU32 e.vc_resource_control.toU32
        vc_resource_status := e.vc_resource_status
        function_arbitration_table := none } := by
  rw [evc_ofBytes, if_pos (by simp [ExtendedVirtualChannel.toBytes, leBytes])]
  have h4 : ∀ (w : U32) (a b c d : U8), a = w.setWidth 8 → b = (w >>> 8).setWidth 8 →
      c = (w >>> 16).setWidth 8 → d = (w >>> 24).setWidth 8 → (d ++ c ++ b ++ a : U32) = w := by
    rintro w _ _ _ _ rfl rfl rfl rfl
    rw [show ∀ a b c d : U8, (d ++ c ++ b ++ a : U32) = u32le a b c d from fun _ _ _ _ => rfl]
    bv_bits [getLsbD_u32le]
  have h2 : ∀ (w : U16) (a b : U8), a = w.setWidth 8 → b = (w >>> 8).setWidth 8 →
      (b ++ a : U16) = w := by
    rintro w _ _ rfl rfl
    apply BitVec.eq_of_getLsbD_eq
    intro i hi
    rw [BitVec.getLsbD_append]
    interval_cases i <;> simp [-BitVec.getLsbD_eq_getElem]
  have e0 : rd32 e.toBytes 0 = e.vc_resource_capability.toU32 := by
    rw [rd32_append]; apply h4 <;> rfl
  have e4 : rd32 e.toBytes 4 = e.vc_resource_control.toU32 := by
    rw [rd32_append]; apply h4 <;> rfl
  have e10 : rd16 e.toBytes 10 = e.vc_resource_status.toU16 := by
    rw [rd16_append]; apply h2 <;> rfl
  rw [e0, e4, e10, ← VcResourceCapability_layout, ← VcResourceControl_layout,
    ← VcResourceStatus_layout, VcResourceStatus_restored]

/-- C89: a VC resource is restored exactly when it has no arbitration table and its fields fit. -/
theorem ExtendedVirtualChannel_restored (e : ExtendedVirtualChannel) :
    ExtendedVirtualChannel.ofBytes e.toBytes = some e ↔
      e.function_arbitration_table = none ∧
      e.vc_resource_capability.function_arbitration_capability.reserved.toNat < 4 ∧
      e.vc_resource_capability.maximum_time_slots.toNat < 128 ∧
      (∀ v, e.vc_resource_control.function_arbitration_select = .Reserved v → v = 6 ∨ v = 7) ∧
      e.vc_resource_control.vc_id.toNat < 8 := by
  rw [ExtendedVirtualChannel_redecode]
  have h1 := VcResourceCapability_restored e.vc_resource_capability
  have h2 := VcResourceControl_restored_partial e.vc_resource_control
  obtain ⟨a, b, c, t⟩ := e
  simp only [Option.some.injEq, ExtendedVirtualChannel.mk.injEq, true_and] at h1 h2 ⊢
  rw [h1, h2]
  constructor
  · rintro ⟨⟨x1, x2⟩, ⟨x3, x4⟩, x5⟩
    exact ⟨x5.symm, x1, x2, x3, x4⟩
  · rintro ⟨x5, x1, x2, x3, x4⟩
    exact ⟨⟨x1, x2⟩, ⟨x3, x4⟩, x5.symm⟩

example : ∃ e : ExtendedVirtualChannel,
    ExtendedVirtualChannel.ofBytes e.toBytes = some e ∧
      e.vc_resource_control.function_arbitration_select = .Reserved 6 :=
  ⟨{ vc_resource_capability :=
        ⟨⟨true, false, true, false, true, false, 3⟩, 127, 4⟩
     vc_resource_control := ⟨0xff, true, .Reserved 6, 7, true⟩
     vc_resource_status := ⟨true, false⟩
     function_arbitration_table := none },
    (ExtendedVirtualChannel_restored _).2 ⟨rfl, by decide, by decide,
      by rintro v h; cases h; exact .inl rfl, by decide⟩, rfl⟩

end

/-! ### Link addresses -/

section
open RootComplexLinkDeclaration

/-- C89: memory-mapped link addresses are always restored. -/
theorem LinkAddress_memory_restored (v : U64) :
    LinkAddress.new 0 (LinkAddress.MemoryMappedSpace v).toDwords.1
      (LinkAddress.MemoryMappedSpace v).toDwords.2 = .MemoryMappedSpace v := by
  rw [LinkAddress_layout, LinkAddress.spec, if_pos rfl]
  simp only [LinkAddress.toDwords, LinkAddress.MemoryMappedSpace.injEq]
  bv_bits []

theorem fld_lt {n m : Nat} (x : BitVec n) (lo k : Nat) : (fld x lo k : BitVec m).toNat < 2 ^ k := by
  simp only [fld, BitVec.toNat_setWidth, BitVec.extractLsb'_toNat]
  exact Nat.lt_of_le_of_lt (Nat.mod_le _ _) (Nat.mod_lt _ (Nat.two_pow_pos k))

theorem configuration_range (t : U8) (lo hi : U32) (n : U8) (r : U16) (f d b : U8) (a : U64)
    (h : LinkAddress.spec t lo hi = .ConfigurationSpace n r f d b a) :
    t ≠ 0 ∧ 1 ≤ n.toNat ∧ n.toNat ≤ 8 ∧ r.toNat < 512 ∧ f.toNat < 8 ∧ d.toNat < 32 ∧
      b.toNat < 2 ^ n.toNat ∧ a.toNat % 2 ^ (20 + n.toNat) = 0 := by
  rw [LinkAddress.spec] at h
  split at h
  · cases h
  rename_i ht
  simp only [LinkAddress.ConfigurationSpace.injEq] at h
  obtain ⟨hn, hr, hf, hd, hb, ha⟩ := h
  rw [hn] at hb ha
  have h3 := fld3_cases lo
  have hn1 : 1 ≤ n.toNat ∧ n.toNat ≤ 8 := by
    rw [← hn]
    generalize (fld lo 0 3 : U8) = x at h3
    revert x; decide +kernel
  refine ⟨ht, hn1.1, hn1.2, ?_, ?_, ?_, ?_, ?_⟩
  · rw [← hr]; exact fld_lt lo 3 9
  · rw [← hf]; exact fld_lt lo 12 3
  · rw [← hd]; exact fld_lt lo 15 5
  · rw [← hb]; exact fld_lt lo 20 _
  · rw [← ha, BitVec.toNat_ofNat,
      Nat.mod_eq_of_lt (Nat.lt_of_le_of_lt (Nat.div_mul_le_self _ _) (BitVec.isLt _)),
      Nat.mul_mod_left]

theorem configuration_dwords (t : U8) (ht : t ≠ 0) (n : Nat) (h1 : 1 ≤ n) (h8 : n ≤ 8) (r : U16)
    (f d b : U8) (a : U64) (hr : ∀ i, 9 ≤ i → r.getLsbD i = false)
    (hf : ∀ i, 3 ≤ i → f.getLsbD i = false) (hd : ∀ i, 5 ≤ i → d.getLsbD i = false)
    (hb : ∀ i, n ≤ i → b.getLsbD i = false) (ha : ∀ i, i < 20 + n → a.getLsbD i = false) :
    LinkAddress.new t (LinkAddress.ConfigurationSpace (BitVec.ofNat 8 n) r f d b a).toDwords.1
      (LinkAddress.ConfigurationSpace (BitVec.ofNat 8 n) r f d b a).toDwords.2 =
      .ConfigurationSpace (BitVec.ofNat 8 n) r f d b a := by
  have hk : (if (BitVec.ofNat 8 n : U8) = 8 then 0 else BitVec.ofNat 8 n) = BitVec.ofNat 8 (n % 8) := by
    interval_cases n <;> rfl
  have hk' : (if (BitVec.ofNat 8 (n % 8) : U8) = 0 then 8 else BitVec.ofNat 8 (n % 8)) =
      BitVec.ofNat 8 n := by
    interval_cases n <;> rfl
  have hn : (BitVec.ofNat 8 n).toNat = n := by
    rw [BitVec.toNat_ofNat, Nat.mod_eq_of_lt (by omega)]
  rw [LinkAddress_layout]
  simp only [LinkAddress.toDwords, hk]
  generalize hlo : a.setWidth 32 ||| b.setWidth 32 <<< 20 ||| d.setWidth 32 <<< 15
    ||| f.setWidth 32 <<< 12 ||| r.setWidth 32 <<< 3 ||| (BitVec.ofNat 8 (n % 8)).setWidth 32 = lo
  have ha' : ∀ i, i < 20 → a.getLsbD i = false := fun i hi => ha i (by omega)
  have hk3 : ∀ i, 3 ≤ i → (BitVec.ofNat 8 (n % 8)).getLsbD i = false := by
    apply (lt_iff_bits _ 3).1
    rw [BitVec.toNat_ofNat]; omega
  generalize BitVec.ofNat 8 (n % 8) = k at hk3 hk' hlo
  have F0 : (fld lo 0 3 : U8) = k := by
    rw [← hlo]
    bv_bits [ha', hk3]
  have F1 : (fld lo 3 9 : U16) = r := by
    rw [← hlo]
    bv_bits [ha', hr, hk3]
  have F2 : (fld lo 12 3 : U8) = f := by
    rw [← hlo]
    bv_bits [ha', hr, hf, hk3]
  have F3 : (fld lo 15 5 : U8) = d := by
    rw [← hlo]
    bv_bits [ha', hr, hf, hd, hk3]
  have F4 : (fld lo 20 n : U8) = b := by
    apply BitVec.eq_of_getLsbD_eq
    intro i hi
    rw [getLsbD_fld]
    by_cases hn : i < n
    · rw [← hlo]
      simp [-BitVec.getLsbD_eq_getElem, BitVec.getLsbD_or, BitVec.getLsbD_setWidth,
        BitVec.getLsbD_shiftLeft, hi, hn, show 20 + i < 32 by omega, ha (20 + i) (by omega),
        hd (20 + i - 15) (by omega), hf (20 + i - 12) (by omega), hr (20 + i - 3) (by omega),
        hk3 (20 + i) (by omega), show 20 + i - 20 = i by omega, show i < 32 by omega]
    · simp [hn, hb i (by omega), -BitVec.getLsbD_eq_getElem]
  have hb20 : ∀ i, 20 + n ≤ i → i < 32 → lo.getLsbD i = a.getLsbD i := by
    intro i hi h32
    rw [← hlo]
    simp [-BitVec.getLsbD_eq_getElem, BitVec.getLsbD_or, BitVec.getLsbD_setWidth,
      BitVec.getLsbD_shiftLeft, h32, hb (i - 20) (by omega), hd (i - 15) (by omega),
      hf (i - 12) (by omega), hr (i - 3) (by omega), hk3 i (by omega)]
  have F5 : (cat ((a >>> 32).setWidth 32 : U32) lo : U64) &&& (0xffffffffffffffff#64 <<< (20 + n)) = a := by
    apply BitVec.eq_of_getLsbD_eq
    intro i hi
    rw [BitVec.getLsbD_and, mask_bit _ i hi, getLsbD_cat]
    by_cases hi20 : 20 + n ≤ i
    · by_cases h32 : i < 32
      · simp [-BitVec.getLsbD_eq_getElem, hi, hi20, h32, hb20 i hi20 h32]
      · simp [-BitVec.getLsbD_eq_getElem, hi, hi20, h32, show 32 + (i - 32) = i by omega,
          show i - 32 < 32 by omega]
    · simp [-BitVec.getLsbD_eq_getElem, hi20, ha i (by omega)]
  simp only [LinkAddress.spec, if_neg ht, F0, hk', hn, F1, F2, F3, F4, ← mask_eq, F5]

/-- C89: a configuration space link address is restored exactly when the bus number width is 1 to 8,
every field fits, and the address of the space is aligned to its size. -/
theorem LinkAddress_configuration_restored_partial (t n : U8) (r : U16) (f d b : U8) (a : U64) :
    LinkAddress.new t (LinkAddress.ConfigurationSpace n r f d b a).toDwords.1
      (LinkAddress.ConfigurationSpace n r f d b a).toDwords.2 = .ConfigurationSpace n r f d b a ↔
    t ≠ 0 ∧ 1 ≤ n.toNat ∧ n.toNat ≤ 8 ∧ r.toNat < 512 ∧ f.toNat < 8 ∧ d.toNat < 32 ∧
      b.toNat < 2 ^ n.toNat ∧ a.toNat % 2 ^ (20 + n.toNat) = 0 := by
  constructor
  · intro h
    rw [LinkAddress_layout] at h
    exact configuration_range _ _ _ _ _ _ _ _ _ h
  · rintro ⟨ht, h1, h8, hr, hf, hd, hb, ha⟩
    have := configuration_dwords t ht n.toNat h1 h8 r f d b a ((lt_iff_bits r 9).1 hr)
      ((lt_iff_bits f 3).1 hf) ((lt_iff_bits d 5).1 hd) ((lt_iff_bits b _).1 hb)
      ((mod_iff_bits a _).1 ha)
    rwa [BitVec.ofNat_toNat, BitVec.setWidth_eq] at this

example : LinkAddress.new 1 (LinkAddress.ConfigurationSpace 8 0x155 5 0x1f 0xfe 0x8000000100000000#64).toDwords.1
    (LinkAddress.ConfigurationSpace 8 0x155 5 0x1f 0xfe 0x8000000100000000#64).toDwords.2 =
    .ConfigurationSpace 8 0x155 5 0x1f 0xfe 0x8000000100000000#64 :=
  (LinkAddress_configuration_restored_partial ..).2 (by decide +kernel)

/-- C89 (the code violates it): a function number that does not fit changes the device number, and a
bus number wider than `n` the address of the space. -/
theorem LinkAddress_spills :
    LinkAddress.new 1 (LinkAddress.ConfigurationSpace 8 0 8 0 0 0).toDwords.1
      (LinkAddress.ConfigurationSpace 8 0 8 0 0 0).toDwords.2 = .ConfigurationSpace 8 0 0 1 0 0 ∧
    LinkAddress.new 1 (LinkAddress.ConfigurationSpace 1 0 0 0 2 0).toDwords.1
      (LinkAddress.ConfigurationSpace 1 0 0 0 2 0).toDwords.2 =
        .ConfigurationSpace 1 0 0 0 0 0x200000 := by
  decide +kernel

end

/-! ### HyperTransport -/

/-- C89: `RevisionId`: both numbers are cut to their widths, neither changes the other. -/
theorem RevisionId_redecode (r : Hypertransport.RevisionId) :
    Hypertransport.RevisionId.ofU8 r.toU8 = { minor := fld r.minor 0 5, major := fld r.major 0 3 } := by
  rw [Hypertransport.RevisionId_layout]
  obtain ⟨m, j⟩ := r
  simp only [Hypertransport.RevisionId.spec, Hypertransport.RevisionId.toU8,
    Hypertransport.RevisionId.mk.injEq]
  constructor <;> bv_bits []

/-- C89: `RevisionId` is restored exactly when the minor number fits in 5 bits and the major number
in 3. -/
theorem RevisionId_restored (r : Hypertransport.RevisionId) :
    Hypertransport.RevisionId.ofU8 r.toU8 = r ↔ r.minor.toNat < 32 ∧ r.major.toNat < 8 := by
  rw [RevisionId_redecode, fits _ 5 32, fits _ 3 8]
  obtain ⟨m, j⟩ := r
  simp

example : Hypertransport.RevisionId.ofU8 (Hypertransport.RevisionId.toU8 ⟨0x25, 0x0b⟩) = ⟨5, 3⟩ := by
  decide +kernel

/-! ### Enumerations -/

/-- C89: a `InterruptPin` is restored unless it is a `Reserved` that holds the code of a named value. -/
theorem InterruptPin_restored (x : Header.InterruptPin) :
    Header.InterruptPin.ofU8 x.toU8 = x ↔ ∀ v, x = .Reserved v → 5 ≤ v.toNat := by
  cases x
  case Reserved v =>
    simp only [Header.InterruptPin.Reserved.injEq, forall_eq']
    revert v; decide +kernel
  all_goals simp [Header.InterruptPin.toU8, Header.InterruptPin.ofU8]

/-- C89: a `ElementType` is restored unless it is a `Reserved` that holds the code of a named value. -/
theorem ElementType_restored (x : RootComplexLinkDeclaration.ElementType) :
    RootComplexLinkDeclaration.ElementType.ofU8 x.toU8 = x ↔ ∀ v, x = .Reserved v → 3 ≤ v.toNat := by
  cases x
  case Reserved v =>
    simp only [RootComplexLinkDeclaration.ElementType.Reserved.injEq, forall_eq']
    revert v; decide +kernel
  all_goals simp [RootComplexLinkDeclaration.ElementType.toU8, RootComplexLinkDeclaration.ElementType.ofU8]

/-- C89: a `CalCycle` is restored unless it is a `Reserved` that holds the code of a named value. -/
theorem CalCycle_restored (x : AcceleratedGraphicsPort.CalCycle) :
    AcceleratedGraphicsPort.CalCycle.ofU8 x.toU8 = x ↔ ∀ v, x = .Reserved v → v ∉ ([0, 1, 2, 3, 7] : List U8) := by
  cases x
  case Reserved v =>
    simp only [AcceleratedGraphicsPort.CalCycle.Reserved.injEq, forall_eq']
    revert v; decide +kernel
  all_goals simp [AcceleratedGraphicsPort.CalCycle.toU8, AcceleratedGraphicsPort.CalCycle.ofU8]

/-- C89: a `DataRateSupport` is restored unless it is a `Reserved` that holds the code of a named value. -/
theorem DataRateSupport_restored (x : AcceleratedGraphicsPort.DataRateSupport) :
    AcceleratedGraphicsPort.DataRateSupport.ofU8 x.toU8 = x ↔ ∀ v, x = .Reserved v → v ∉ ([1, 2, 3] : List U8) := by
  cases x
  case Reserved v =>
    simp only [AcceleratedGraphicsPort.DataRateSupport.Reserved.injEq, forall_eq']
    revert v; decide +kernel
  all_goals simp [AcceleratedGraphicsPort.DataRateSupport.toU8, AcceleratedGraphicsPort.DataRateSupport.ofU8]

/-- C89: a `DataRateEnabled` is restored unless it is a `Reserved` that holds the code of a named value. -/
theorem DataRateEnabled_restored (x : AcceleratedGraphicsPort.DataRateEnabled) :
    AcceleratedGraphicsPort.DataRateEnabled.ofU8 x.toU8 = x ↔ ∀ v, x = .Reserved v → v ∉ ([1, 2] : List U8) := by
  cases x
  case Reserved v =>
    simp only [AcceleratedGraphicsPort.DataRateEnabled.Reserved.injEq, forall_eq']
    revert v; decide +kernel
  all_goals simp [AcceleratedGraphicsPort.DataRateEnabled.toU8, AcceleratedGraphicsPort.DataRateEnabled.ofU8]

/-- C89: a `LinkSpeed` is restored unless it is a `Reserved` that holds the code of a named value. -/
theorem LinkSpeed_restored (x : PciExpress.LinkSpeed) :
    PciExpress.LinkSpeed.ofU8 x.toU8 = x ↔ ∀ v, x = .Reserved v → v ∉ ([1, 2, 3, 4, 5, 6, 7] : List U8) := by
  cases x
  case Reserved v =>
    simp only [PciExpress.LinkSpeed.Reserved.injEq, forall_eq']
    revert v; decide +kernel
  all_goals simp [PciExpress.LinkSpeed.toU8, PciExpress.LinkSpeed.ofU8]

/-- C89: a `LinkWidth` is restored unless it is a `Reserved` that holds the code of a named value. -/
theorem LinkWidth_restored (x : PciExpress.LinkWidth) :
    PciExpress.LinkWidth.ofU8 x.toU8 = x ↔ ∀ v, x = .Reserved v → v ∉ ([1, 2, 4, 8, 12, 16, 32] : List U8) := by
  cases x
  case Reserved v =>
    simp only [PciExpress.LinkWidth.Reserved.injEq, forall_eq']
    revert v; decide +kernel
  all_goals simp [PciExpress.LinkWidth.toU8, PciExpress.LinkWidth.ofU8]

/-- C89: a `CompletionTimeoutRanges` is restored unless it is a `Reserved` that holds the code of a named value. -/
theorem CompletionTimeoutRanges_restored (x : PciExpress.CompletionTimeoutRanges) :
    PciExpress.CompletionTimeoutRanges.ofU8 x.toU8 = x ↔ ∀ v, x = .Reserved v → v ∉ ([0, 1, 2, 3, 6, 7, 14, 15] : List U8) := by
  cases x
  case Reserved v =>
    simp only [PciExpress.CompletionTimeoutRanges.Reserved.injEq, forall_eq']
    revert v; decide +kernel
  all_goals simp [PciExpress.CompletionTimeoutRanges.toU8, PciExpress.CompletionTimeoutRanges.ofU8]

/-- C89: a `CompletionTimeoutValue` is restored unless it is a `Reserved` that holds the code of a named value. -/
theorem CompletionTimeoutValue_restored (x : PciExpress.CompletionTimeoutValue) :
    PciExpress.CompletionTimeoutValue.ofU8 x.toU8 = x ↔ ∀ v, x = .Reserved v → v ∉ ([0, 1, 2, 5, 6, 9, 10, 13, 14] : List U8) := by
  cases x
  case Reserved v =>
    simp only [PciExpress.CompletionTimeoutValue.Reserved.injEq, forall_eq']
    revert v; decide +kernel
  all_goals simp [PciExpress.CompletionTimeoutValue.toU8, PciExpress.CompletionTimeoutValue.ofU8]

/-- C89: a `DataSelect` is restored unless it is a `Reserved` that holds the code of a named value. -/
theorem DataSelect_restored (x : PowerManagementInterface.DataSelect) :
    PowerManagementInterface.DataSelect.ofU8 x.toU8 = x ↔ ∀ v, x = .Reserved v → 9 ≤ v.toNat := by
  cases x
  case Reserved v =>
    simp only [PowerManagementInterface.DataSelect.Reserved.injEq, forall_eq']
    revert v; decide +kernel
  all_goals simp [PowerManagementInterface.DataSelect.toU8, PowerManagementInterface.DataSelect.ofU8]

/-- C89: a `PortArbitrationSelect` is restored unless it is a `Reserved` that holds the code of a named value. -/
theorem PortArbitrationSelect_restored (x : VirtualChannel.PortArbitrationSelect) :
    VirtualChannel.PortArbitrationSelect.ofU8 x.toU8 = x ↔ ∀ v, x = .Reserved v → 6 ≤ v.toNat := by
  cases x
  case Reserved v =>
    simp only [VirtualChannel.PortArbitrationSelect.Reserved.injEq, forall_eq']
    revert v; decide +kernel
  all_goals simp [VirtualChannel.PortArbitrationSelect.toU8, VirtualChannel.PortArbitrationSelect.ofU8]

/-- C89: a `FunctionArbitrationSelect` is restored unless it is a `Reserved` that holds the code of a named value. -/
theorem FunctionArbitrationSelect_restored (x : MultifunctionVirtualChannel.FunctionArbitrationSelect) :
    MultifunctionVirtualChannel.FunctionArbitrationSelect.ofU8 x.toU8 = x ↔ ∀ v, x = .Reserved v → 6 ≤ v.toNat := by
  cases x
  case Reserved v =>
    simp only [MultifunctionVirtualChannel.FunctionArbitrationSelect.Reserved.injEq, forall_eq']
    revert v; decide +kernel
  all_goals simp [MultifunctionVirtualChannel.FunctionArbitrationSelect.toU8, MultifunctionVirtualChannel.FunctionArbitrationSelect.ofU8]

example : Header.InterruptPin.ofU8 (Header.InterruptPin.Reserved 9).toU8 = .Reserved 9 ∧
    Header.InterruptPin.ofU8 (Header.InterruptPin.Reserved 2).toU8 = .IntB := by decide

/-- C89: enumerations without payload are restored. -/
theorem plain_enumerations_restored :
    (∀ x : L1PmSubstates.PortTPowerOnScale, .ofU8 x.toU8 = x) ∧
    (∀ x : PciExpress.TphCompleter, (PciExpress.TphCompleter.ofU8 x.toU8 : Res Unit _) = .ok x) ∧
    (∀ x : PciExpress.LnSystemCls, (PciExpress.LnSystemCls.ofU8 x.toU8 : Res Unit _) = .ok x) ∧
    (∀ x : PciExpress.Obff, (PciExpress.Obff.ofU8 x.toU8 : Res Unit _) = .ok x) ∧
    (∀ x : PciExpress.MaxEndEndTlpPrefixes, (PciExpress.MaxEndEndTlpPrefixes.ofU8 x.toU8 : Res Unit _) = .ok x) ∧
    (∀ x : PciExpress.EmergencyPowerReduction, (PciExpress.EmergencyPowerReduction.ofU8 x.toU8 : Res Unit _) = .ok x) ∧
    (∀ x : PciExpress.ObffEnable, (PciExpress.ObffEnable.ofU8 x.toU8 : Res Unit _) = .ok x) := by
  refine ⟨?_, ?_, ?_, ?_, ?_, ?_, ?_⟩ <;> (intro x; cases x <;> rfl)

/-- C89: a snoop filter coverage is restored exactly when it is a power of two from 2^16 to 2^46 (or
there is no snoop filter). -/
theorem CacheSfCoverage_restored (x : ComputeExpressLink.CacheSfCoverage) :
    (ComputeExpressLink.CacheSfCoverage.ofU8 x.toU8 : Res Unit _) = .ok x ↔
      x = .NoSnoopFilter ∨ ∃ k, 16 ≤ k ∧ k ≤ 46 ∧ x = .SnoopFilter (BitVec.ofNat 64 (2 ^ k)) := by
  constructor
  · intro h
    simp only [ComputeExpressLink.CacheSfCoverage.ofU8] at h
    generalize x.toU8 = b at h
    split at h
    · cases h; exact .inl rfl
    split at h
    · rename_i h0 h31
      cases h
      have hb : b.toNat ≠ 0 := fun e => h0 (BitVec.eq_of_toNat_eq e)
      refine .inr ⟨b.toNat + 15, by omega, by omega, ?_⟩
      congr 1
      apply BitVec.eq_of_toNat_eq
      simp [Nat.shiftLeft_eq]
    · cases h
  · rintro (rfl | ⟨k, h1, h2, rfl⟩)
    · rfl
    · interval_cases k <;> decide +kernel

end Pcics.Encode
