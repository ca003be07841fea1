import Verif.Spec.Cap.EnhancedAllocation
import Verif.Lemmas.Tactics
import Verif.Lemmas.Bv
/- Properties of src/capabilities/enhanced_allocation.rs -/

namespace Pcics.EnhancedAllocation
open Spec

/-- C40: the `16` codes of `BarEquivalentIndicator` decode without panic, to their meanings. -/
theorem BarEquivalentIndicator_total {ε : Type} (n : Nat) :
    (BarEquivalentIndicator.ofU8 (BitVec.ofNat 8 (n % 16)) : Res ε BarEquivalentIndicator) =
      .ok (BarEquivalentIndicator.spec (BitVec.ofNat 8 (n % 16))) := by
  have h : n % 16 < 16 := Nat.mod_lt _ (by decide)
  generalize n % 16 = m at h
  interval_cases m <;> rfl

/-- C40: meaning of every code of `ResourceDefinition`. -/
theorem ResourceDefinition_values (b : U8) : ResourceDefinition.ofU8 b = ResourceDefinition.spec b := by
  revert b; decide +kernel

/-- C40: every field of the first dword of an entry is at its bit position. -/
theorem EnhancedAllocationEntry_layout {ε : Type} (w : U32) (b m : ResourceRangeAddress) :
    (EnhancedAllocationEntry.ofU32 w b m : Res ε EnhancedAllocationEntry) = .ok {
      entry_size := fld w 0 3
      bar_equivalent_indicator := .spec (fld w 4 4)
      primary_properties := .spec (fld w 8 8)
      secondary_properties := .spec (fld w 16 8)
      writable := flag w 30
      enable := flag w 31
      base := b
      max_offset := m } := by
  bits_simp [EnhancedAllocationEntry.ofU32, BarEquivalentIndicator_total,
    ResourceDefinition_values]

private theorem bit1 (w : U32) : (w &&& 0b10#32 != 0) = flag w 1 := by
  have h : (0b10#32 : U32) = BitVec.twoPow 32 1 := rfl
  rw [h, BitVec.and_twoPow]
  simp only [flag]
  cases w.getLsbD 1 <;> rfl

private theorem cat64 (u x : U32) :
    (u.setWidth 64 <<< 32) ||| x.setWidth 64 = (cat u x : U64) := by bv_bits []

private theorem mask6 (w : U8) : w &&& 0x3f#8 = fld w 0 6 := by revert w; decide +kernel

/-- C40: one step of the iterator, from any state: never a panic; nothing once the count is used up
or the entry does not fit; otherwise the entry at the current position, the position moves to the
following entry and the count decreases. -/
theorem ea_next (real : Bool) (s : EnhancedAllocationEntries) :
    s.next real = .ok (
      if s.count = 0 ∨ s.data.length < 12 then (none, s)
      else if entryFits real s.data then
        (some (.spec s.data), ⟨s.data.drop (entryStep real s.data), s.count - 1⟩)
      else (none, ⟨s.data, s.count - 1⟩)) := by
  obtain ⟨d, c⟩ := s
  by_cases hc : c = 0
  · simp [EnhancedAllocationEntries.next, hc]
  have hif : ∀ x y : Option EnhancedAllocationEntry × EnhancedAllocationEntries,
      (if c = 0 ∨ d.length < 12 then x else y) = if 12 ≤ d.length then y else x := by
    intro x y
    by_cases h : 12 ≤ d.length
    · rw [if_neg (not_or.mpr ⟨hc, by omega⟩), if_pos h]
    · rw [if_pos (Or.inr (by omega)), if_neg h]
  simp only [hif]
  have hs : ∀ s : U8, (s.toNat + 1) * 4 = 4 * (s.toNat + 1) := fun s => Nat.mul_comm _ _
  unfold EnhancedAllocationEntries.next rangeAddress
  simp only [hc, if_false, bit1, cat64]
  by_cases h12 : 12 ≤ d.length
  · by_cases hf : entryFits real d <;>
    rcases Bool.eq_false_or_eq_true (flag (rd32 d 4) 1) with hb | hb <;>
    rcases Bool.eq_false_or_eq_true (flag (rd32 d 8) 1) with hm | hm <;>
    cases real <;>
    simp only [entryFits, entryBytes, entryStep, hb, hm, if_true, Bool.false_eq_true, if_false]
      at hf ⊢ <;>
    by_cases h16 : 16 ≤ d.length <;> by_cases h20 : 20 ≤ d.length <;>
    by_cases h1 : 4 * ((fld (rd32 d 0) 0 3 : U8).toNat + 1) ≤ d.length <;>
    first
    | omega
    | bytes_len [hb, hm, bit1, cat64, hs, EnhancedAllocationEntry_layout, EnhancedAllocationEntry.spec,
        entryFits, entryBytes, entryStep, Bool.false_eq_true, if_false, if_true]
  · bytes_len []

/-- C40: collecting the iterator gives exactly the entries laid out in the data, each following the
previous one, at most as many as counted, up to the first that does not fit. -/
theorem ea_collect (real : Bool) (fuel : Nat) (s : EnhancedAllocationEntries)
    (hf : s.count.toNat < fuel) :
    s.collect real fuel = .ok (entriesOf real s.count.toNat s.data) := by
  induction fuel generalizing s with
  | zero => omega
  | succ n ih =>
    obtain ⟨d, c⟩ := s
    simp only at hf
    rw [EnhancedAllocationEntries.collect, ea_next]
    by_cases hc : c = 0
    · subst hc; rfl
    have hpos : 0 < c.toNat := by
      rcases Nat.eq_zero_or_pos c.toNat with h | h
      · exact absurd (BitVec.eq_of_toNat_eq (by simpa using h)) hc
      · exact h
    obtain ⟨k, hk⟩ : ∃ k, c.toNat = k + 1 := ⟨c.toNat - 1, by omega⟩
    have hk' : (c - 1).toNat = k := by
      have := c.isLt
      rw [BitVec.toNat_sub]; simp; omega
    simp only [hk, entriesOf]
    by_cases h12 : d.length < 12
    · have : ¬ entryFits real d := fun h => by have := h.1; omega
      simp [h12, this, Res.bind_ok, Res.pure_eq]
    · by_cases hfit : entryFits real d
      · simp only [hc, h12, or_self, if_false, hfit, if_true, Res.bind_ok, Res.pure_eq]
        rw [ih _ (by simp only [hk']; omega)]
        simp only [hk', Res.bind_ok]
      · simp only [hc, h12, or_self, if_false, hfit, Res.bind_ok, Res.pure_eq]

theorem entriesOf_length (real : Bool) (n : Nat) (d : Bytes) :
    (entriesOf real n d).length ≤ n := by
  induction n generalizing d with
  | zero => simp [entriesOf]
  | succ n ih =>
    rw [entriesOf]
    split
    · simpa using ih _
    · simp

/-- C40: never more entries than the count. -/
theorem ea_at_most (real : Bool) (fuel : Nat) (s : EnhancedAllocationEntries)
    (hf : s.count.toNat < fuel) :
    ∃ es, s.collect real fuel = .ok es ∧ es.length ≤ s.count.toNat :=
  ⟨_, ea_collect real fuel s hf, entriesOf_length _ _ _⟩

/-- C40: once the iterator has returned nothing it returns nothing for ever. -/
theorem ea_exhausted (real : Bool) (s s' : EnhancedAllocationEntries)
    (h : s.next real = .ok (none, s')) : ∃ s'', s'.next real = .ok (none, s'') := by
  rw [ea_next] at h
  rw [ea_next]
  split at h
  · rename_i hc
    simp only [Res.ok.injEq, Prod.mk.injEq, true_and] at h
    subst h
    exact ⟨s, by simp only [hc, if_true]⟩
  · split at h
    · simp at h
    · rename_i hfit
      simp only [Res.ok.injEq, Prod.mk.injEq, true_and] at h
      subst h
      simp only [hfit, if_false]
      split <;> exact ⟨_, rfl⟩

/-- C40: a non-bridge function: the count is bits 5:0 of byte 0, the entries start after the first
two bytes; fails exactly below 2 bytes. -/
theorem ea_function (d : Bytes) :
    EnhancedAllocation.tryNew d false =
      if 2 ≤ d.length then .ok {
        num_entries := fld (byteAt d 0) 0 6
        type_1_second_dw := none
        entries := ⟨d.drop 2, fld (byteAt d 0) 0 6⟩ }
      else .err .NumEntries := by
  match d with
  | [] => rfl
  | [_] => rfl
  | a :: b :: r => simp [EnhancedAllocation.tryNew, byteAt, mask6]

/-- C40: a bridge: two fixed bus numbers at bytes 2 and 3, two more bytes skipped, the entries
follow; fails exactly below 6 bytes. -/
theorem ea_bridge (d : Bytes) :
    EnhancedAllocation.tryNew d true =
      if 6 ≤ d.length then .ok {
        num_entries := fld (byteAt d 0) 0 6
        type_1_second_dw := some {
          fixed_secondary_bus_number := byteAt d 2
          fixed_subordinate_bus_number := byteAt d 3 }
        entries := ⟨d.drop 6, fld (byteAt d 0) 0 6⟩ }
      else .err .NumEntries := by
  match d with
  | [] => rfl
  | [_] => rfl
  | [_, _] => rfl
  | [_, _, _] => rfl
  | [_, _, _, _] => rfl
  | [_, _, _, _, _] => rfl
  | a :: b :: c :: e :: f :: g :: r => simp [EnhancedAllocation.tryNew, byteAt, mask6]

/-- Two entries: a 32-bit one (entry size 2) and one with a 64-bit base (entry size 3). -/
def twoEntries : Bytes :=
  [0x02, 0x00, 0x02, 0x80, 0x00, 0x00, 0x00, 0x10, 0xff, 0x0f, 0, 0,
   0x83, 0x00, 0x00, 0xc0, 0x02, 0x00, 0x00, 0x20, 0xfc, 0xff, 0, 0, 0x01, 0, 0, 0]

example : (entriesOf false 5 twoEntries).map (fun e => (e.entry_size, e.writable, e.enable, e.base)) =
    [(2, false, true, .U32 0x10000000), (3, true, true, .U64 0x120000000)] := by decide +kernel

example : ((⟨twoEntries, 5⟩ : EnhancedAllocationEntries).collect false 6) =
    .ok (entriesOf false 5 twoEntries) := ea_collect _ _ _ (by decide)

end Pcics.EnhancedAllocation
