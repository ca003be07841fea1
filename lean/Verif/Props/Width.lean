import Verif.Model.Width
import Verif.Props.Ext.LatencyToleranceReporting
import Verif.Props.Ext.L1PmSubstates
import Verif.Props.Ext.VirtualChannel
import Verif.Props.Ext.MultifunctionVirtualChannel
import Verif.Props.Cap.PciX
/- C90: what is computed with `usize` does not depend on how wide it is. -/

namespace Pcics.Width
open Pcics Spec

private theorem toNat_fld {n m : Nat} (w : BitVec n) (lo len : Nat) (h : len ≤ m) :
    (fld w lo len : BitVec m).toNat = w.toNat / 2 ^ lo % 2 ^ len := by
  simp only [fld, BitVec.toNat_setWidth, BitVec.extractLsb'_toNat, Nat.shiftRight_eq_div_pow]
  exact Nat.mod_eq_of_lt (Nat.lt_of_lt_of_le (Nat.mod_lt _ (Nat.two_pow_pos _))
    (Nat.pow_le_pow_right (by decide) h))

private theorem fld_lt8 {n : Nat} (w : BitVec n) (lo len : Nat) (h : len ≤ 8) :
    (fld w lo len : U8).toNat < 2 ^ len := by
  rw [toNat_fld _ _ _ h]
  exact Nat.mod_lt _ (Nat.two_pow_pos _)

private theorem oneShl_ok {ε : Type} (w n : Nat) (h : n < w) : (oneShl w n : Res ε Nat) = .ok (2 ^ n) :=
  if_pos h

/-- C90: the sizes of a decoded PCI-X status register are the same for every `usize`. -/
theorem pcix_status {ε : Type} (w : Nat) (hw : 16 ≤ w) (r : U32) :
    ((PciX.Status.ofU32 r).designed_maximum_memory_read_byte_count.valueAt w : Res ε Nat) =
        .ok (512 * 2 ^ (fld r 21 2 : U8).toNat) ∧
    ((PciX.Status.ofU32 r).designed_maximum_cumulative_read_size.adqsAt w : Res ε Nat) =
        .ok (8 * 2 ^ (fld r 26 3 : U8).toNat) ∧
    ((PciX.Status.ofU32 r).designed_maximum_cumulative_read_size.bytesAt w : Res ε Nat) =
        .ok (2 ^ (fld r 26 3 : U8).toNat) := by
  simp only [PciX.Status_layout, PciX.Status.spec, PciX.MaximumByteCount.valueAt,
    PciX.MaximumCumulativeReadSize.adqsAt, PciX.MaximumCumulativeReadSize.bytesAt]
  have h1 := fld_lt8 r 21 2 (by decide)
  have h2 := fld_lt8 r 26 3 (by decide)
  refine ⟨?_, ?_, oneShl_ok _ _ (by omega)⟩
  · rw [if_pos (by omega), oneShl_ok _ _ (by omega), Nat.pow_add, Nat.mul_comm]
  · rw [if_pos (by omega), oneShl_ok _ _ (by omega), Nat.pow_add, Nat.mul_comm]

example : ((PciX.Status.ofU32 0x1fffffff).designed_maximum_cumulative_read_size.adqsAt 16 :
    Res Empty Nat) = .ok 1024 := by decide +kernel

/-- C90: and so is the size of a decoded PCI-X command register. -/
theorem pcix_command {ε : Type} (w : Nat) (hw : 16 ≤ w) (r : U16) :
    ((PciX.Command.ofU16 r).maximum_memory_read_byte_count.valueAt w : Res ε Nat) =
      .ok (512 * 2 ^ (fld r 2 2 : U8).toNat) := by
  simp only [PciX.Command_layout, PciX.Command.spec, PciX.MaximumByteCount.valueAt]
  have h1 := fld_lt8 r 2 2 (by decide)
  rw [if_pos (by omega), oneShl_ok _ _ (by omega), Nat.pow_add, Nat.mul_comm]

example : ((PciX.Command.ofU16 0xffff).maximum_memory_read_byte_count.valueAt 16 :
    Res Empty Nat) = .ok 4096 := by decide +kernel

/-- C90: the codes are public, so that values need not be decoded ones: then these sizes are powers
of two as well, and it is a panic exactly if they do not fit the `usize`. -/
theorem pcix_any {ε : Type} (w : Nat) (hw : w ≤ 256) (c : PciX.MaximumByteCount)
    (s : PciX.MaximumCumulativeReadSize) :
    (c.valueAt w : Res ε Nat) =
        (if 512 * 2 ^ c.val.toNat < 2 ^ w then .ok (512 * 2 ^ c.val.toNat) else .panic) ∧
    (s.adqsAt w : Res ε Nat) =
        (if 8 * 2 ^ s.val.toNat < 2 ^ w then .ok (8 * 2 ^ s.val.toNat) else .panic) ∧
    (s.bytesAt w : Res ε Nat) =
        (if 2 ^ s.val.toNat < 2 ^ w then .ok (2 ^ s.val.toNat) else .panic) := by
  have e : ∀ n, (2 ^ n < 2 ^ w) = (n < w) := fun n => propext (Nat.pow_lt_pow_iff_right (by decide))
  have h9 : ∀ n, 512 * 2 ^ n = 2 ^ (n + 9) := fun n => by rw [Nat.pow_add]; omega
  have h3 : ∀ n, 8 * 2 ^ n = 2 ^ (n + 3) := fun n => by rw [Nat.pow_add]; omega
  simp only [h9, h3, e, PciX.MaximumByteCount.valueAt, PciX.MaximumCumulativeReadSize.adqsAt,
    PciX.MaximumCumulativeReadSize.bytesAt, oneShl]
  refine ⟨?_, ?_, trivial⟩
  · by_cases h : c.val.toNat + 9 < 256
    · rw [if_pos h]
    · rw [if_neg h, if_neg (by omega)]
  · by_cases h : s.val.toNat + 3 < 256
    · rw [if_pos h]
    · rw [if_neg h, if_neg (by omega)]

example : ((⟨60⟩ : PciX.MaximumCumulativeReadSize).adqsAt 64 : Res Empty Nat) = .ok (2 ^ 63) ∧
    ((⟨61⟩ : PciX.MaximumCumulativeReadSize).adqsAt 64 : Res Empty Nat) = .panic := by
  decide +kernel

/-- C90: the entry sizes of the arbitration tables of decoded port registers are the same for every
`usize`. -/
theorem entry_sizes {ε : Type} (w : Nat) (hw : 16 ≤ w) (r : U32) :
    ((VirtualChannel.PortVcCapability1.ofU32 r).port_arbitration_table_entry_size.bitsAt w :
        Res ε Nat) = .ok (2 ^ (fld r 10 2 : U8).toNat) ∧
    ((MultifunctionVirtualChannel.PortVcCapability1.ofU32
        r).function_arbitration_table_entry_size.bitsAt w : Res ε Nat) =
      .ok (2 ^ (fld r 10 2 : U8).toNat) := by
  have h1 := fld_lt8 r 10 2 (by decide)
  simp only [VirtualChannel.PortVcCapability1_layout, VirtualChannel.PortVcCapability1.spec,
    MultifunctionVirtualChannel.PortVcCapability1_layout,
    MultifunctionVirtualChannel.PortVcCapability1.spec,
    VirtualChannel.PortArbitrationTableEntrySize.bitsAt,
    MultifunctionVirtualChannel.FunctionArbitrationTableEntrySize.bitsAt]
  exact ⟨oneShl_ok _ _ (by omega), oneShl_ok _ _ (by omega)⟩

example : ((VirtualChannel.PortVcCapability1.ofU32 0xc00).port_arbitration_table_entry_size.bitsAt 16
    : Res Empty Nat) = .ok 8 := by decide +kernel

/-- C90: T_POWER_ON is the same for every `usize`, also of values that are not decoded ones. -/
theorem t_power_on {ε : Type} (w : Nat) (hw : 16 ≤ w) (p : L1PmSubstates.PortTPowerOn) :
    (p.valueAt w : Res ε (Option Nat)) = .ok p.value' := by
  have hp : 2 ^ 16 ≤ 2 ^ w := Nat.pow_le_pow_right (by decide) hw
  have hv := p.value.isLt
  obtain ⟨v, s⟩ := p
  unfold L1PmSubstates.PortTPowerOn.valueAt L1PmSubstates.PortTPowerOn.value'
  have h : ∀ n, n ≤ 100 → v.toNat * n < 2 ^ w := fun n hn =>
    Nat.lt_of_lt_of_le (Nat.lt_of_le_of_lt
      (Nat.mul_le_mul (Nat.le_of_lt_succ hv : v.toNat ≤ 255) hn) (by decide)) hp
  cases s
  · exact if_pos (h 2 (by decide))
  · exact if_pos (h 10 (by decide))
  · exact if_pos (h 100 (by decide))
  · rfl

example : ((⟨255, .Time100us⟩ : L1PmSubstates.PortTPowerOn).valueAt 16 : Res Empty (Option Nat)) =
    .ok (some 25500) := by decide +kernel

/-- C90: offsets and lengths of tables, computed as a byte field times at most 16, or as an 11-bit
field times 2, plus at most 4, are the same for every `usize`. -/
theorem offsets {ε : Type} (w : Nat) (hw : 16 ≤ w) :
    (∀ (field : U8) (size add : Nat), size ≤ 16 → add ≤ 4 →
      (offsetAt w field size add : Res ε Nat) = .ok (field.toNat * size + add)) ∧
    ∀ r : U32, (offsetAt w (fld r 16 11 : U16) 2 2 : Res ε Nat) =
      .ok ((fld r 16 11 : U16).toNat * 2 + 2) := by
  have hp : 2 ^ 16 ≤ 2 ^ w := Nat.pow_le_pow_right (by decide) hw
  constructor
  · intro field size add hs ha
    have h : field.toNat * size ≤ 255 * 16 := Nat.mul_le_mul (by have := field.isLt; omega) hs
    exact if_pos ⟨by omega, by omega⟩
  · intro r
    have h : (fld r 16 11 : U16).toNat < 2 ^ 11 := by
      rw [toNat_fld _ _ _ (by decide)]; exact Nat.mod_lt _ (by decide)
    exact if_pos ⟨by omega, by omega⟩

example : (offsetAt 16 (255 : U8) 16 0 : Res Empty Nat) = .ok 4080 := by decide +kernel

/-! ### Latency Tolerance Reporting -/

private theorem shl_toNat (w : Nat) (v : U16) (k : Nat) (hw : 16 ≤ w) :
    (v.setWidth w <<< k : BitVec w).toNat = v.toNat * 2 ^ k % 2 ^ w := by
  have hv : v.toNat < 2 ^ w :=
    Nat.lt_of_lt_of_le v.isLt (Nat.pow_le_pow_right (by decide) hw)
  rw [BitVec.toNat_shiftLeft, BitVec.toNat_setWidth, Nat.shiftLeft_eq, Nat.mod_eq_of_lt hv]

/-- C90 (the code violates it): a latency is not the same for a `usize` of 32 bits as for one of 64;
of 128 * 2^25 ns nothing is left. -/
theorem max_latency_width_fails :
    ¬ ∀ (r : U16) (a : BitVec 32) (b : BitVec 64),
      (LatencyToleranceReporting.MaxLatency.ofU16 r).valueAt 32 = (.ok a : Res Empty _) →
      (LatencyToleranceReporting.MaxLatency.ofU16 r).valueAt 64 = (.ok b : Res Empty _) →
      a.toNat = b.toNat := by
  intro h
  have := h 0x1480 0 0x100000000 (by decide +kernel) (by decide +kernel)
  exact absurd this (by decide +kernel)

/-- C90: the latency for every width and every value, decoded or not: the bits that fit, and a panic
exactly if the scale shifts by the whole width or more. -/
theorem max_latency_any {ε : Type} (w : Nat) (hw : 16 ≤ w)
    (m : LatencyToleranceReporting.MaxLatency) :
    (5 < m.scale.toNat → m.valueAt w = (.ok 0 : Res ε _)) ∧
    (m.scale.toNat ≤ 5 → w ≤ 5 * m.scale.toNat → m.valueAt w = (.panic : Res ε _)) ∧
    (m.scale.toNat ≤ 5 → 5 * m.scale.toNat < w → ∃ v : BitVec w, m.valueAt w = (.ok v : Res ε _) ∧
      v.toNat = m.value.toNat * 32 ^ m.scale.toNat % 2 ^ w) := by
  simp only [LatencyToleranceReporting.MaxLatency.valueAt]
  refine ⟨fun h => if_neg (by omega), fun h h' => ?_, fun h h' => ?_⟩
  · rw [if_pos h, if_neg (by omega)]
  · rw [if_pos h, if_pos h']
    exact ⟨_, rfl, by rw [shl_toNat _ _ _ hw, Nat.pow_mul]⟩

example : ((⟨1, 4⟩ : LatencyToleranceReporting.MaxLatency).valueAt 16 : Res Empty _) = .panic ∧
    ((⟨3, 3⟩ : LatencyToleranceReporting.MaxLatency).valueAt 16 : Res Empty _) = .ok 0x8000 := by
  decide +kernel

/-- C90: with a `usize` of at least 35 bits, and only then, the latency of every register is exact:
`value * 32 ^ scale`, or 0 for the scales that are not permitted. Missing: narrower ones. -/
theorem max_latency_width_partial {ε : Type} (w : Nat) (hw : 16 ≤ w) :
    35 ≤ w ↔ ∀ r : U16, ∃ v : BitVec w,
      (LatencyToleranceReporting.MaxLatency.ofU16 r).valueAt w = (.ok v : Res ε _) ∧
      v.toNat = if (fld r 10 3 : U8).toNat ≤ 5 then
        (fld r 0 10 : U16).toNat * 32 ^ (fld r 10 3 : U8).toNat else 0 := by
  constructor
  · intro h r
    simp only [LatencyToleranceReporting.MaxLatency_layout,
      LatencyToleranceReporting.MaxLatency.spec, LatencyToleranceReporting.MaxLatency.valueAt]
    by_cases hs : (fld r 10 3 : U8).toNat ≤ 5
    · simp only [if_pos hs]
      rw [if_pos (by omega)]
      refine ⟨_, rfl, ?_⟩
      have hv : (fld r 0 10 : U16).toNat < 2 ^ 10 := by
        rw [toNat_fld _ _ _ (by decide)]; exact Nat.mod_lt _ (by decide)
      rw [shl_toNat _ _ _ hw, Nat.pow_mul, Nat.mod_eq_of_lt]
      have h1 : (2 ^ 5) ^ (fld r 10 3 : U8).toNat ≤ (2 ^ 5) ^ 5 :=
        Nat.pow_le_pow_right (by decide) hs
      have h2 : (fld r 0 10 : U16).toNat * (2 ^ 5) ^ (fld r 10 3 : U8).toNat < 2 ^ 10 * (2 ^ 5) ^ 5 :=
        Nat.lt_of_le_of_lt (Nat.mul_le_mul_left _ h1)
          (Nat.mul_lt_mul_of_pos_right hv (by decide))
      exact Nat.lt_of_lt_of_le h2 (Nat.pow_le_pow_right (n := 2) (by decide) h)
    · simp only [if_neg hs]
      exact ⟨_, rfl, by simp⟩
  · intro h
    by_contra hlt
    obtain ⟨v, -, hv⟩ := h 0x17ff
    have := v.isLt
    have h2 : 2 ^ w ≤ 2 ^ 34 := Nat.pow_le_pow_right (by decide) (by omega)
    rw [hv] at this
    exact absurd (Nat.lt_of_lt_of_le this h2) (by decide +kernel)

/-- C90: with a `usize` of 32 bits the latency is exact unless the scale is 5 and the value at least
128; then the bits of the value from bit 7 on are lost. -/
theorem max_latency_32 {ε : Type} (r : U16) : ∃ v : U32,
    (LatencyToleranceReporting.MaxLatency.ofU16 r).valueAt 32 = (.ok v : Res ε _) ∧
    v.toNat = if (fld r 10 3 : U8).toNat < 5 then
        (fld r 0 10 : U16).toNat * 32 ^ (fld r 10 3 : U8).toNat
      else if (fld r 10 3 : U8).toNat = 5 then (fld r 0 7 : U16).toNat * 32 ^ 5 else 0 := by
  simp only [LatencyToleranceReporting.MaxLatency_layout,
    LatencyToleranceReporting.MaxLatency.spec, LatencyToleranceReporting.MaxLatency.valueAt]
  have hv : (fld r 0 10 : U16).toNat < 2 ^ 10 := by
    rw [toNat_fld _ _ _ (by decide)]; exact Nat.mod_lt _ (by decide)
  by_cases hs : (fld r 10 3 : U8).toNat < 5
  · simp only [if_pos (Nat.le_of_lt hs), if_pos hs]
    rw [if_pos (by omega)]
    refine ⟨_, rfl, ?_⟩
    rw [shl_toNat _ _ _ (by decide), Nat.pow_mul, Nat.mod_eq_of_lt]
    have h1 : (2 ^ 5) ^ (fld r 10 3 : U8).toNat ≤ (2 ^ 5) ^ 4 :=
      Nat.pow_le_pow_right (by decide) (by omega)
    exact Nat.lt_of_lt_of_le (Nat.lt_of_le_of_lt (Nat.mul_le_mul_left _ h1)
      (Nat.mul_lt_mul_of_pos_right hv (by decide))) (by decide)
  · by_cases h5 : (fld r 10 3 : U8).toNat = 5
    · rw [if_pos (by omega), if_neg hs, if_pos h5, if_pos (by omega), h5]
      refine ⟨_, rfl, ?_⟩
      rw [shl_toNat _ _ _ (by decide), toNat_fld _ _ _ (by decide), toNat_fld _ _ _ (by decide)]
      omega
    · rw [if_neg (by omega), if_neg hs, if_neg h5]
      exact ⟨_, rfl, by simp⟩

example : (LatencyToleranceReporting.MaxLatency.ofU16 0x1481).valueAt 32 =
    (.ok 0x2000000 : Res Empty _) := by decide +kernel

end Pcics.Width
