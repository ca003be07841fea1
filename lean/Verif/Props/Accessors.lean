import Verif.Model.Accessors
import Verif.Spec.Cap.PciX
import Verif.Lemmas.Tactics
/- C70: accessors on every value their public types can hold. -/

namespace Pcics.Accessors

open Pcics Spec

/-- C70: the SATA BAR offset in bytes is four times the stored dword count, and overflows exactly
from 2^30 dwords on. -/
theorem sata_bar_offset (s : Sata.BarOffset) :
    (s.val.toNat < 2 ^ 30 → ∃ v : U32, (s.value : Res Empty U32) = .ok v ∧
      v.toNat = 4 * s.val.toNat) ∧
    (2 ^ 30 ≤ s.val.toNat → (s.value : Res Empty U32) = .panic) := by
  unfold Sata.BarOffset.value
  constructor
  · intro h
    rw [if_pos (by omega)]
    refine ⟨_, rfl, ?_⟩
    rw [BitVec.toNat_mul]
    simp only [BitVec.toNat_ofNat]
    omega
  · intro h
    rw [if_neg (by omega)]

/-- C70: the PCI-X memory read byte count is 2^(9 + code) for codes below 55 and overflows from
there on. -/
theorem pcix_byte_count (c : PciX.MaximumByteCount) :
    c.value = if c.val.toNat < 55 then .ok (512 * 2 ^ c.val.toNat) else .panic := by
  unfold PciX.MaximumByteCount.value
  by_cases h : c.val.toNat < 55
  · rw [if_pos h, if_neg (by omega), Nat.one_shiftLeft, Nat.pow_add, Nat.mul_comm]
  · rw [if_neg h, if_pos (by omega)]

/-- C70: the PCI-X outstanding split transactions of codes 0 to 7 are 1, 2, 3, 4, 8, 12, 16, 32; any
other code is a panic. -/
theorem pcix_split_transactions (c : PciX.MaximumOutstandingSplitTransactions) :
    c.value = match [1, 2, 3, 4, 8, 12, 16, 32][c.val.toNat]? with
      | some n => .ok n
      | none => .panic := by
  rcases c with ⟨v⟩
  revert v; decide +kernel

/-- C70: the cumulative read size is 2^(3 + code) ADQs for codes below 61 and overflows from there
on. -/
theorem pcix_adqs (c : PciX.MaximumCumulativeReadSize) :
    c.adqs = if c.val.toNat < 61 then .ok (8 * 2 ^ c.val.toNat) else .panic := by
  unfold PciX.MaximumCumulativeReadSize.adqs
  by_cases h : c.val.toNat < 61
  · rw [if_pos h, if_neg (by omega), Nat.one_shiftLeft, Nat.pow_add, Nat.mul_comm]
  · rw [if_neg h, if_pos (by omega)]

/-- C70: and `bytes` is 2^code for codes below 64 and overflows from there on. -/
theorem pcix_bytes (c : PciX.MaximumCumulativeReadSize) :
    c.bytes = if c.val.toNat < 64 then .ok (2 ^ c.val.toNat) else .panic := by
  unfold PciX.MaximumCumulativeReadSize.bytes
  by_cases h : c.val.toNat < 64
  · rw [if_pos h, if_neg (by omega), Nat.one_shiftLeft]
  · rw [if_neg h, if_pos (by omega)]

/-- C70: re-encoding the bus mode, error protection and frequency gives `c` exactly when they are
what the four bit code `c` decodes to. -/
theorem pcix_mode_and_frequency_iff (s : PciX.SecondaryStatus) (c : U8) :
    s.secondary_bus_mode_and_frequency = .ok c ↔
      c.toNat < 16 ∧ s.secondary_bus_mode = PciX.SecondaryBusMode.spec c ∧
        s.error_protection = PciX.ErrorProtection.spec c ∧
        s.secondary_bus_frequency = PciX.SecondaryBusFrequency.spec c := by
  unfold PciX.SecondaryStatus.secondary_bus_mode_and_frequency
  generalize s.secondary_bus_mode = m
  generalize s.error_protection = e
  generalize s.secondary_bus_frequency = f
  revert c
  cases m <;> cases e <;> cases f <;> decide +kernel

/-- C70: a combination no code decodes to is a panic, never a wrong code. -/
theorem pcix_mode_and_frequency_panics (s : PciX.SecondaryStatus)
    (h : ∀ c : U8, c.toNat < 16 → ¬(s.secondary_bus_mode = PciX.SecondaryBusMode.spec c ∧
        s.error_protection = PciX.ErrorProtection.spec c ∧
        s.secondary_bus_frequency = PciX.SecondaryBusFrequency.spec c)) :
    s.secondary_bus_mode_and_frequency = .panic := by
  cases hr : s.secondary_bus_mode_and_frequency with
  | ok c => exact absurd ((pcix_mode_and_frequency_iff s c).1 hr) (fun hh => h c hh.1 hh.2)
  | panic => rfl
  | err e =>
    unfold PciX.SecondaryStatus.secondary_bus_mode_and_frequency at hr
    split at hr <;> cases hr

/-- C70: the number of MSI vectors is 2^code for codes below 8 and overflows `u8` from there on. -/
theorem msi_vectors (m : MessageSignaledInterrups.MultipleMessage) :
    (m.val.toNat < 8 → ∃ v : U8, (m.number_of_vectors : Res Empty U8) = .ok v ∧
      v.toNat = 2 ^ m.val.toNat) ∧
    (8 ≤ m.val.toNat → (m.number_of_vectors : Res Empty U8) = .panic) := by
  rcases m with ⟨v⟩
  unfold MessageSignaledInterrups.MultipleMessage.number_of_vectors
  constructor
  · intro h
    rw [if_pos h]
    refine ⟨_, rfl, ?_⟩
    revert v; decide +kernel
  · intro h
    rw [if_neg (by dsimp only at h ⊢; omega)]

/-- C70: arbitration table entries have 2^code bits, for codes below 64. -/
theorem function_entry_bits (s : MultifunctionVirtualChannel.FunctionArbitrationTableEntrySize) :
    s.bitsChecked = if s.val.toNat < 64 then .ok (2 ^ s.val.toNat) else .panic := by
  unfold MultifunctionVirtualChannel.FunctionArbitrationTableEntrySize.bitsChecked
    MultifunctionVirtualChannel.FunctionArbitrationTableEntrySize.bits
  rw [Nat.one_shiftLeft]

/-- C70: and so have port arbitration table entries. -/
theorem port_entry_bits (s : VirtualChannel.PortArbitrationTableEntrySize) :
    s.bitsChecked = if s.val.toNat < 64 then .ok (2 ^ s.val.toNat) else .panic := by
  unfold VirtualChannel.PortArbitrationTableEntrySize.bitsChecked
    VirtualChannel.PortArbitrationTableEntrySize.bits
  rw [Nat.one_shiftLeft]

/-- C70: a step over a function arbitration table panics exactly when the entry size is above 8 and
there is something left to read; the entry size never changes, so a table made with a size up to 8
never panics, however far it is walked. -/
theorem function_table_panics (t : MultifunctionVirtualChannel.FunctionArbitrationTable) :
    (t.nextChecked = .panic ↔ 8 < t.entry_size_bits ∧ (t.shift ≠ 0 ∨ t.data ≠ [])) ∧
    (t.nextChecked ≠ .panic → t.nextChecked = .ok t.next) ∧
    (∀ e t', t.next = some (e, t') → t'.entry_size_bits = t.entry_size_bits) := by
  rcases t with ⟨data, size, shift, byte⟩
  unfold MultifunctionVirtualChannel.FunctionArbitrationTable.nextChecked MultifunctionVirtualChannel.FunctionArbitrationTable.next
  refine ⟨?_, ?_, ?_⟩
  · dsimp only
    by_cases h1 : shift = 0 ∧ data = []
    · simp [h1]
    · simp only [h1, if_false]
      have : shift ≠ 0 ∨ data ≠ [] := by
        by_cases hs : shift = 0
        · exact .inr fun hd => h1 ⟨hs, hd⟩
        · exact .inl hs
      by_cases h2 : 8 < size <;> simp [h2, this]
  · dsimp only
    by_cases h1 : shift = 0 ∧ data = []
    · obtain ⟨rfl, rfl⟩ := h1
      simp
    · simp only [h1, if_false]
      by_cases h2 : 8 < size <;> simp [h2]
  · intro e t' h
    dsimp only at h
    split at h
    · cases data <;> simp at h
      rw [← h.2]
    · by_cases hs : shift = 0
      · cases data <;> simp [hs] at h
        rw [← h.2]
      · simp [hs] at h
        rw [← h.2]

/-- C70: a step over a port arbitration table panics exactly when the entry size is above 8 and
there is something left to read; the entry size never changes, so a table made with a size up to 8
never panics, however far it is walked. -/
theorem port_table_panics (t : VirtualChannel.PortArbitrationTable) :
    (t.nextChecked = .panic ↔ 8 < t.entry_size_bits ∧ (t.shift ≠ 0 ∨ t.data ≠ [])) ∧
    (t.nextChecked ≠ .panic → t.nextChecked = .ok t.next) ∧
    (∀ e t', t.next = some (e, t') → t'.entry_size_bits = t.entry_size_bits) := by
  rcases t with ⟨data, size, shift, byte⟩
  unfold VirtualChannel.PortArbitrationTable.nextChecked VirtualChannel.PortArbitrationTable.next
  refine ⟨?_, ?_, ?_⟩
  · dsimp only
    by_cases h1 : shift = 0 ∧ data = []
    · simp [h1]
    · simp only [h1, if_false]
      have : shift ≠ 0 ∨ data ≠ [] := by
        by_cases hs : shift = 0
        · exact .inr fun hd => h1 ⟨hs, hd⟩
        · exact .inl hs
      by_cases h2 : 8 < size <;> simp [h2, this]
  · dsimp only
    by_cases h1 : shift = 0 ∧ data = []
    · obtain ⟨rfl, rfl⟩ := h1
      simp
    · simp only [h1, if_false]
      by_cases h2 : 8 < size <;> simp [h2]
  · intro e t' h
    dsimp only at h
    split at h
    · cases data <;> simp at h
      rw [← h.2]
    · by_cases hs : shift = 0
      · cases data <;> simp [hs] at h
        rw [← h.2]
      · simp [hs] at h
        rw [← h.2]

example : (⟨30⟩ : PciX.MaximumByteCount).value = .ok (2 ^ 39) := by decide +kernel
example : (⟨0x3fffffff⟩ : Sata.BarOffset).value = (.ok 0xfffffffc : Res Empty U32) := by
  decide +kernel
example : (VirtualChannel.PortArbitrationTable.new [1] 9).nextChecked = .panic := by decide +kernel

end Pcics.Accessors
