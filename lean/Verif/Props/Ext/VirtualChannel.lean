import Verif.Lemmas.Reads
import Verif.Spec.Ext.VirtualChannel
import Verif.Lemmas.Tactics
import Verif.Lemmas.Bv
import Verif.Lemmas.Packed
/- Properties of src/extended_capabilities/virtual_channel.rs -/

namespace Pcics.VirtualChannel
open Spec

/-- C43: meaning of every code of `ReferenceClock`. -/
theorem ReferenceClock_values (b : U8) : ReferenceClock.ofU8 b = ReferenceClock.spec b := by
  revert b; decide +kernel

/-- C43: meaning of every code of `PortArbitrationSelect`. -/
theorem PortArbitrationSelect_values (b : U8) : PortArbitrationSelect.ofU8 b = PortArbitrationSelect.spec b := by
  revert b; decide +kernel

/-- C43, C56: encoding a `PortArbitrationSelect` gives back the code. -/
theorem PortArbitrationSelect_roundtrip (b : U8) : (PortArbitrationSelect.ofU8 b).toU8 = b := by
  revert b; decide +kernel

/-- C43: meaning of every code of `VcArbitrationSelect`. -/
theorem VcArbitrationSelect_values (b : U8) : VcArbitrationSelect.ofU8 b = VcArbitrationSelect.spec b := by
  revert b; decide +kernel

/-- C43: every field of `PortVcCapability1` is at its bit position. -/
theorem PortVcCapability1_layout (w : U32) :
    PortVcCapability1.ofU32 w = PortVcCapability1.spec w := by
  bits_simp [PortVcCapability1.ofU32, PortVcCapability1.spec, PortArbitrationTableEntrySize.ofU8,
    ReferenceClock_values]

/-- C43: every field of `VcResourceCapability` is at its bit position. -/
theorem VcResourceCapability_layout (w : U32) :
    VcResourceCapability.ofU32 w = VcResourceCapability.spec w := by
  bits_simp [VcResourceCapability.ofU32, VcResourceCapability.spec]

/-- C43: every field of `VcResourceControl` is at its bit position. -/
theorem VcResourceControl_layout (w : U32) :
    VcResourceControl.ofU32 w = VcResourceControl.spec w := by
  bits_simp [VcResourceControl.ofU32, VcResourceControl.spec, PortArbitrationSelect_values]

/-- C43: every field of `VcResourceStatus` is at its bit position. -/
theorem VcResourceStatus_layout (w : U16) :
    VcResourceStatus.ofU16 w = VcResourceStatus.spec w := by
  bits_simp [VcResourceStatus.ofU16, VcResourceStatus.spec]

/-- C43: every field of `PortVcCapability2` is at its bit position. -/
theorem PortVcCapability2_layout (w : U32) :
    PortVcCapability2.ofU32 w = PortVcCapability2.spec w := by
  bits_simp [PortVcCapability2.ofU32, PortVcCapability2.spec]

/-- C43: every field of `PortVcControl` is at its bit position. -/
theorem PortVcControl_layout (w : U16) :
    PortVcControl.ofU16 w = PortVcControl.spec w := by
  bits_simp [PortVcControl.ofU16, PortVcControl.spec, VcArbitrationSelect_values]

/-- C43: every field of `PortVcStatus` is at its bit position. -/
theorem PortVcStatus_layout (w : U16) :
    PortVcStatus.ofU16 w = PortVcStatus.spec w := by
  bits_simp [PortVcStatus.ofU16, PortVcStatus.spec]

/-- C43: Virtual Channel parses iff twelve bytes follow the header, and every register is at its
offset. -/
theorem VirtualChannel_bytes (d : Bytes) :
    VirtualChannel.ofBytes d =
      if 12 ≤ d.length then .ok (.spec d) else .err { name := "Virtual Channel", size := 8 } := by
  by_cases h : 12 ≤ d.length
  · bytes_len [VirtualChannel.ofBytes, VirtualChannel.spec, PortVcCapability1_layout,
      PortVcCapability2_layout, PortVcControl_layout, PortVcStatus_layout]
  · bytes_len [VirtualChannel.ofBytes]

/-- C43: the number of phases of every port arbitration scheme code. -/
theorem portPhases_eq (b : U8) :
    (PortArbitrationSelect.spec b).port_arbitration_table_length = portPhases b := by
  revert b; decide +kernel

/-- C43: the number of phases of every VC arbitration scheme code. -/
theorem vcPhases_eq (b : U8) :
    (VcArbitrationSelect.spec b).vc_arbitration_table_length = vcPhases b := by
  revert b; decide +kernel

/-- 32 phases for code 1, none for a reserved code. -/
example : (VcArbitrationSelect.spec 1).vc_arbitration_table_length = 32 ∧
    (PortArbitrationSelect.spec 5).port_arbitration_table_length = 256 ∧
    (VcArbitrationSelect.spec 6).vc_arbitration_table_length = 0 := by decide +kernel

theorem VatEntryPair_layout (b : U8) : VatEntryPair.ofU8 b = ⟨⟨fld b 0 3⟩, ⟨fld b 4 3⟩⟩ := by
  revert b; decide +kernel

/-- C44: iterating a VC arbitration table yields the VC IDs of the two nibbles of each byte, low
nibble first, and nothing else. -/
theorem VcArbitrationTable_items (t : Bytes) (k : Nat) :
    takeIter VcArbitrationTable.next k (.new t) = (vcArbitrationEntries t).take k := by
  have key : ∀ s : VcArbitrationTable, takeIter VcArbitrationTable.next k s =
      (s.vate.toList ++ vcArbitrationEntries s.data).take k := by
    intro s
    refine takeIter_eq _ (fun _ => True) (fun s => s.vate.toList ++ vcArbitrationEntries s.data)
      ?_ ?_ k s trivial
    · rintro ⟨d, v⟩ _ h
      cases v with
      | some v => simp [VcArbitrationTable.next] at h
      | none =>
        cases d with
        | nil => rfl
        | cons b d => simp [VcArbitrationTable.next] at h
    · rintro ⟨d, v⟩ a s' _ h
      refine ⟨trivial, ?_⟩
      cases v with
      | some v =>
        simp only [VcArbitrationTable.next, Option.some.injEq, Prod.mk.injEq] at h
        obtain ⟨rfl, rfl⟩ := h
        rfl
      | none =>
        cases d with
        | nil => simp [VcArbitrationTable.next] at h
        | cons b d =>
          simp only [VcArbitrationTable.next, VatEntryPair_layout, Option.some.injEq,
            Prod.mk.injEq] at h
          obtain ⟨rfl, rfl⟩ := h
          rfl
  rw [key]
  rfl

theorem pat_entry (size shift : Nat) (b : U8) (h : size < 8) (hs : shift + size ≤ 8) :
    (b &&& (~~~(0xff#8 <<< size)) <<< shift) >>> shift = (fld b shift size : U8) := by
  have : ∀ size < 8, ∀ shift ≤ 8 - size, ∀ b : U8,
      (b &&& (~~~(0xff#8 <<< size)) <<< shift) >>> shift = (fld b shift size : U8) := by
    decide +kernel
  exact this size h shift (by omega) b

/-- C44: iterating a port arbitration table with entries of 1, 2, 4 or 8 bits yields all entries of
all bytes, in order from the low bits up, and nothing else. -/
theorem PortArbitrationTable_items (t : Bytes) (size : Nat)
    (hs : size = 1 ∨ size = 2 ∨ size = 4 ∨ size = 8) (k : Nat) :
    takeIter PortArbitrationTable.next k (.new t size) = ((packed size t).map .mk).take k := by
  by_cases h8 : size = 8
  · subst h8
    rw [packed_eight]
    exact bytes_iter PortArbitrationTable.next .mk (fun d => ⟨d, 8, 0, 0⟩) rfl (fun _ _ => rfl) k t
  · have hlt : size < 8 := by omega
    have hm : 8 / size * size = 8 := by rcases hs with rfl | rfl | rfl | rfl <;> rfl
    refine packed_iter PortArbitrationTable.next .mk (fun d j b => ⟨d, size, j, b⟩) size hm
      ?_ ?_ ?_ k t 0
    · intro b
      simp [PortArbitrationTable.next, h8]
    · intro x r b
      have := pat_entry size 0 x hlt (by omega)
      simp only [PortArbitrationTable.next, h8, if_false, if_true, Option.bind_eq_bind,
        Option.bind_some, this, Nat.zero_add]
    · intro d j b hj0 hj
      have h1 : (j + 1) * size ≤ 8 := by
        rw [← hm]; exact Nat.mul_le_mul_right _ hj
      rw [Nat.add_mul, Nat.one_mul] at h1
      have hne : j * size ≠ 0 := by
        have : 0 < size := by omega
        exact Nat.ne_of_gt (Nat.mul_pos hj0 this)
      have := pat_entry size (j * size) b hlt h1
      simp only [PortArbitrationTable.next, h8, hne, if_false, Option.bind_eq_bind,
        Option.bind_some, this]

theorem entry_size_bits (w : U32) :
    (PortVcCapability1.spec w).port_arbitration_table_entry_size.bits =
      2 ^ (fld w 10 2 : U8).toNat ∧ (fld w 10 2 : U8).toNat < 4 := by
  have h : (fld w 10 2 : U8).toNat < 4 := by
    simp only [fld, BitVec.toNat_setWidth]
    exact Nat.lt_of_le_of_lt (Nat.mod_le _ _) (BitVec.isLt _)
  refine ⟨?_, h⟩
  simp only [PortVcCapability1.spec, PortArbitrationTableEntrySize.bits, Nat.one_shiftLeft]

/-- C43, C44: the entry size of a decoded port register is 1, 2, 4 or 8 bits. -/
theorem entry_size (w : U32) :
    let n := (PortVcCapability1.ofU32 w).port_arbitration_table_entry_size.bits
    n = 2 ^ (fld w 10 2 : U8).toNat ∧ (n = 1 ∨ n = 2 ∨ n = 4 ∨ n = 8) := by
  have h := entry_size_bits w
  rw [← PortVcCapability1_layout] at h
  refine ⟨h.1, ?_⟩
  rw [h.1]
  have := h.2
  generalize (fld w 10 2 : U8).toNat = n at this
  have : n = 0 ∨ n = 1 ∨ n = 2 ∨ n = 3 := by omega
  rcases this with rfl | rfl | rfl | rfl <;> decide

theorem evc_bytes (e : ExtendedVirtualChannelError) (d : Bytes) (i : Nat) (h : i + 12 ≤ d.length) :
    ExtendedVirtualChannel.ofBytes e ((d.take (i + 12)).drop i) = .ok (.spec d i) := by
  have h' : 12 ≤ ((d.take (i + 12)).drop i).length := by simp; omega
  have e8 : ∀ j, j < 12 → byteAt ((d.take (i + 12)).drop i) j = byteAt d (i + j) := by
    intro j hj
    simp [byteAt, List.getD, List.getElem?_take, hj]
  generalize hc : (d.take (i + 12)).drop i = c at *
  bytes_len [ExtendedVirtualChannel.ofBytes, ExtendedVirtualChannel.spec,
    VcResourceCapability_layout, VcResourceControl_layout, VcResourceStatus_layout]
  simp only [rd32, rd16, e8 _ (by decide : 0 < 12), e8 _ (by decide : 1 < 12),
    e8 _ (by decide : 2 < 12), e8 _ (by decide : 3 < 12), e8 _ (by decide : 4 < 12),
    e8 _ (by decide : 5 < 12), e8 _ (by decide : 6 < 12), e8 _ (by decide : 7 < 12),
    e8 _ (by decide : 10 < 12), e8 _ (by decide : 11 < 12), Nat.add_zero, Nat.add_assoc,
    Nat.reduceAdd]

theorem evc_take (d : Bytes) (k n : Nat) (off : Nat) (c : U8) (hc : c.toNat = n) :
    takeIter ExtendedVirtualChannels.next k ⟨d, c, off⟩ =
      ((List.range (min n ((d.length - off) / 12))).map fun i =>
        .ok (.spec d (off + 12 * i))).take k := by
  induction k generalizing n off c with
  | zero => simp [takeIter]
  | succ k ih =>
    cases n with
    | zero =>
      have : c = 0#8 := BitVec.eq_of_toNat_eq (by simpa using hc)
      subst this
      rw [takeIter, Nat.zero_min]
      rfl
    | succ n =>
      have hne : c ≠ (0 : U8) := by rintro rfl; simp at hc
      by_cases hl : off + 12 ≤ d.length
      · have hn : ExtendedVirtualChannels.next ⟨d, c, off⟩ =
            some (.ok (.spec d off), ⟨d, c - 1, off + 12⟩) := by
          simp only [ExtendedVirtualChannels.next, hne, if_false, getRange,
            if_pos (show off ≤ off + 12 ∧ off + 12 ≤ d.length by omega), Option.bind_eq_bind,
            Option.bind_some, evc_bytes _ d off hl]
        have hc' : (c - 1).toNat = n := by
          have := c.isLt
          simp [BitVec.toNat_sub]; omega
        rw [takeIter, hn]
        simp only
        rw [ih n (off + 12) (c - 1) hc',
          show min (n + 1) ((d.length - off) / 12) = 1 + min n ((d.length - (off + 12)) / 12) by omega,
          range_add_map]
        simp only [List.range_one, List.map_cons, List.map_nil, List.cons_append, List.nil_append,
          List.take_succ_cons, Nat.mul_zero, Nat.add_zero, Nat.mul_add, Nat.mul_one, Nat.add_assoc]
      · have hn : ExtendedVirtualChannels.next ⟨d, c, off⟩ = none := by
          simp only [ExtendedVirtualChannels.next, hne, if_false, getRange,
            if_neg (show ¬ (off ≤ off + 12 ∧ off + 12 ≤ d.length) by omega), Option.bind_eq_bind,
            Option.bind_none]
        rw [takeIter, hn, show min (n + 1) ((d.length - off) / 12) = 0 by omega]
        rfl

theorem evc_drop (d : Bytes) (n i : Nat) :
    ExtendedVirtualChannel.spec (d.drop n) i = ExtendedVirtualChannel.spec d (n + i) := by
  simp only [ExtendedVirtualChannel.spec, rd32_drop, rd16_drop, Nat.add_assoc]

/-- C43: asking a parsed capability for its VC resources never panics and yields the default VC and
the announced extended VCs that are complete, in order, each from its own registers (offset 10h of
the capability, 12 bytes each). -/
theorem extended_virtual_channels_items (d : Bytes) (vc : VirtualChannel)
    (h : VirtualChannel.ofBytes d = .ok vc) (k : Nat) :
    ∃ it, vc.extended_virtual_channels (ε := Empty) = .ok it ∧
      takeIter ExtendedVirtualChannels.next k it =
        ((List.range (min ((fld (rd32 d 0) 0 3 : U8).toNat + 1) ((d.length - 12) / 12))).map
          fun i => .ok (.spec d (12 + 12 * i))).take k := by
  rw [VirtualChannel_bytes] at h
  split at h
  · cases h
    rename_i h12
    have hlt : (fld (rd32 d 0) 0 3 : U8).toNat < 8 := by
      simp only [fld, BitVec.toNat_setWidth]
      exact Nat.lt_of_le_of_lt (Nat.mod_le _ _) (BitVec.isLt _)
    have hne : (fld (rd32 d 0) 0 3 : U8) ≠ 255 := by
      intro e; rw [e] at hlt; revert hlt; decide
    refine ⟨⟨d.drop 12, fld (rd32 d 0) 0 3 + 1, 0⟩, ?_, ?_⟩
    · simp only [VirtualChannel.extended_virtual_channels, VirtualChannel.spec, getFrom,
        Nat.reduceSub, h12, if_true, ExtendedVirtualChannels.new, PortVcCapability1.spec, hne, if_false,
        Res.orPanic]
      rfl
    · rw [evc_take _ k ((fld (rd32 d 0) 0 3 : U8).toNat + 1)]
      · simp only [evc_drop, List.length_drop, Nat.sub_zero, Nat.zero_add]
      · rw [BitVec.toNat_add]
        exact Nat.mod_eq_of_lt (by simp; omega)
  · cases h

/-- C43 (what is missing: the table must be inside the data, otherwise the code panics): asking a
parsed capability for its VC arbitration table gives the bytes at the announced offset (16-byte
units from the start of the capability, whose 4-byte header is not in the data) if it is there, and
panics exactly when it is not. -/
theorem vc_arbitration_table_partial (d : Bytes) (vc : VirtualChannel)
    (h : VirtualChannel.ofBytes d = .ok vc) :
    vc.vc_arbitration_table (ε := Empty) =
      let offset := (fld (rd32 d 4) 24 8 : U8).toNat
      let length := vcPhases (fld (rd16 d 8) 1 3) / 2
      if 1 ≤ offset ∧ 16 * offset - 4 + length ≤ d.length then
        .ok (.new ((d.drop (16 * offset - 4)).take length))
      else .panic := by
  rw [VirtualChannel_bytes] at h
  split at h
  · cases h
    simp only [VirtualChannel.vc_arbitration_table, VirtualChannel.spec, PortVcCapability2.spec,
      PortVcControl.spec, vcPhases_eq, getRange]
    by_cases h0 : 1 ≤ (fld (rd32 d 4) 24 8 : U8).toNat
    · rw [if_neg (by omega)]
      rw [Nat.mul_comm _ 16]
      by_cases hl : 16 * (fld (rd32 d 4) 24 8 : U8).toNat - 4 + vcPhases (fld (rd16 d 8) 1 3) / 2
          ≤ d.length
      · rw [if_pos ⟨Nat.le_add_right _ _, hl⟩, if_pos ⟨h0, hl⟩, List.drop_take,
          Nat.add_sub_cancel_left]
        rfl
      · rw [if_neg (fun h => hl h.2), if_neg (fun h => hl h.2)]
        rfl
    · simp only [h0, false_and, if_false]
      rw [if_pos (by omega)]
      rfl
  · cases h

/-- C43 (what is missing: the table must be inside the data, otherwise the code panics): the port
arbitration table of a VC resource is at the announced offset, and the code panics exactly when it is
not in the data. -/
theorem port_arbitration_table_partial (d : Bytes) (vc : VirtualChannel)
    (h : VirtualChannel.ofBytes d = .ok vc) (i : Nat) :
    vc.port_arbitration_table (ε := Empty) (.spec d (12 + 12 * i)) =
      let size := 2 ^ (fld (rd32 d 0) 10 2 : U8).toNat
      let offset := (fld (rd32 d (12 + 12 * i)) 24 8 : U8).toNat
      let length := size * portPhases (fld (rd32 d (12 + 12 * i + 4)) 17 3) / 8
      if 1 ≤ offset ∧ 16 * offset - 4 + length ≤ d.length then
        .ok (.new ((d.drop (16 * offset - 4)).take length) size)
      else .panic := by
  rw [VirtualChannel_bytes] at h
  split at h
  · cases h
    simp only [VirtualChannel.port_arbitration_table, VirtualChannel.spec, (entry_size_bits _).1,
      ExtendedVirtualChannel.spec, VcResourceCapability.spec,
      VcResourceControl.spec, portPhases_eq, getRange]
    generalize (fld (rd32 d (12 + 12 * i)) 24 8 : U8).toNat = o
    generalize 2 ^ (fld (rd32 d 0) 10 2 : U8).toNat = size
    generalize portPhases (fld (rd32 d (12 + 12 * i + 4)) 17 3) = n
    by_cases h0 : 1 ≤ o
    · rw [if_neg (by omega), Nat.mul_comm _ 16]
      by_cases hl : 16 * o - 4 + size * n / 8 ≤ d.length
      · rw [if_pos ⟨Nat.le_add_right _ _, hl⟩, if_pos ⟨h0, hl⟩, List.drop_take,
          Nat.add_sub_cancel_left]
        rfl
      · rw [if_neg (fun h => hl h.2), if_neg (fun h => hl h.2)]
        rfl
    · simp only [h0, false_and, if_false]
      rw [if_pos (by omega)]
      rfl
  · cases h

/-- C43 (the code violates it): a parsed capability without a VC arbitration table panics when asked
for it. -/
theorem vc_arbitration_table_panics : ∃ d vc, VirtualChannel.ofBytes d = .ok vc ∧
    vc.vc_arbitration_table (ε := Empty) = .panic :=
  ⟨List.replicate 24 0, _, rfl, by decide +kernel⟩

/-- C43 (the code violates it): a parsed capability whose VC resource announces no port arbitration
table panics when asked for it. -/
theorem port_arbitration_table_panics : ∃ d vc, VirtualChannel.ofBytes d = .ok vc ∧
    vc.port_arbitration_table (ε := Empty) (.spec d 12) = .panic :=
  ⟨List.replicate 24 0, _, rfl, by decide +kernel⟩

/-- A capability with one VC resource, a 16-byte VC arbitration table at 20h and a port arbitration
table (32 entries of 4 bits) at 30h. -/
def sample : Bytes :=
  [0, 0x08, 0, 0, 0x02, 0, 0, 2, 0x02, 0, 0, 0,
   0x02, 0, 0, 3, 0xff, 0, 2, 0x80, 0, 0, 0, 0, 0, 0, 0, 0,
   0x10, 0x32, 0, 0, 0, 0, 0, 0, 0, 0, 0, 0, 0, 0, 0, 0,
   0x54, 0x76, 0, 0, 0, 0, 0, 0, 0, 0, 0, 0, 0, 0, 0, 0]

example : ∃ vc, VirtualChannel.ofBytes sample = .ok vc ∧
    (vc.vc_arbitration_table (ε := Empty)).map' (takeIter VcArbitrationTable.next 4) =
      .ok [⟨0⟩, ⟨1⟩, ⟨2⟩, ⟨3⟩] ∧
    (vc.port_arbitration_table (ε := Empty) (.spec sample 12)).map'
      (takeIter PortArbitrationTable.next 4) = .ok [⟨4⟩, ⟨5⟩, ⟨6⟩, ⟨7⟩] ∧
    (vc.extended_virtual_channels (ε := Empty)).map'
      (fun s => (takeIter ExtendedVirtualChannels.next 9 s).length) = .ok 1 :=
  ⟨_, rfl, by decide +kernel, by decide +kernel, by decide +kernel⟩

example : takeIter PortArbitrationTable.next 9 (.new [0xe4, 0x1b] 2) =
    [⟨0⟩, ⟨1⟩, ⟨2⟩, ⟨3⟩, ⟨3⟩, ⟨2⟩, ⟨1⟩, ⟨0⟩] := by decide +kernel

/-! ### C76 -/

theorem ReferenceClock_bits2 {n : Nat} (a b : BitVec n) (lo : Nat) :
    ReferenceClock.spec (fld a lo 2) = ReferenceClock.spec (fld b lo 2) ↔
      ∀ i, i < 2 → a.getLsbD (lo + i) = b.getLsbD (lo + i) :=
  code_eq_iff _ 2 (by decide) (by decide +kernel) a b lo

theorem PortArbitrationSelect_bits3 {n : Nat} (a b : BitVec n) (lo : Nat) :
    PortArbitrationSelect.spec (fld a lo 3) = PortArbitrationSelect.spec (fld b lo 3) ↔
      ∀ i, i < 3 → a.getLsbD (lo + i) = b.getLsbD (lo + i) :=
  code_eq_iff _ 3 (by decide) (by decide +kernel) a b lo

theorem VcArbitrationSelect_bits3 {n : Nat} (a b : BitVec n) (lo : Nat) :
    VcArbitrationSelect.spec (fld a lo 3) = VcArbitrationSelect.spec (fld b lo 3) ↔
      ∀ i, i < 3 → a.getLsbD (lo + i) = b.getLsbD (lo + i) :=
  code_eq_iff _ 3 (by decide) (by decide +kernel) a b lo

/-- C76: `PortVcCapability1` registers decode to the same value exactly when they agree in bits
0-2, 4-6, 8-11. -/
theorem PortVcCapability1_reads (a b : U32) :
    PortVcCapability1.ofU32 a = PortVcCapability1.ofU32 b ↔
      a &&& 0x00000f77#32 = b &&& 0x00000f77#32 := by
  reads [PortVcCapability1_layout, PortVcCapability1.spec, PortVcCapability1.mk.injEq,
    ReferenceClock_bits2, PortArbitrationTableEntrySize.mk.injEq]

/-- C76: `VcResourceCapability` registers decode to the same value exactly when they agree in bits
0-7, 14-22, 24-31. -/
theorem VcResourceCapability_reads (a b : U32) :
    VcResourceCapability.ofU32 a = VcResourceCapability.ofU32 b ↔
      a &&& 0xff7fc0ff#32 = b &&& 0xff7fc0ff#32 := by
  reads [VcResourceCapability_layout, VcResourceCapability.spec, VcResourceCapability.mk.injEq,
    PortArbitrationCapability.mk.injEq]

/-- C76: `VcResourceControl` registers decode to the same value exactly when they agree in bits
0-7, 16-19, 24-26, 31. -/
theorem VcResourceControl_reads (a b : U32) :
    VcResourceControl.ofU32 a = VcResourceControl.ofU32 b ↔
      a &&& 0x870f00ff#32 = b &&& 0x870f00ff#32 := by
  reads [VcResourceControl_layout, VcResourceControl.spec, VcResourceControl.mk.injEq,
    PortArbitrationSelect_bits3]

/-- C76: `VcResourceStatus` registers decode to the same value exactly when they agree in bits
0-1. -/
theorem VcResourceStatus_reads (a b : U16) :
    VcResourceStatus.ofU16 a = VcResourceStatus.ofU16 b ↔
      a &&& 0x0003#16 = b &&& 0x0003#16 := by
  reads [VcResourceStatus_layout, VcResourceStatus.spec, VcResourceStatus.mk.injEq]

/-- C76: `PortVcCapability2` registers decode to the same value exactly when they agree in bits
0-7, 24-31. -/
theorem PortVcCapability2_reads (a b : U32) :
    PortVcCapability2.ofU32 a = PortVcCapability2.ofU32 b ↔
      a &&& 0xff0000ff#32 = b &&& 0xff0000ff#32 := by
  reads [PortVcCapability2_layout, PortVcCapability2.spec, PortVcCapability2.mk.injEq,
    VcArbitrationCapability.mk.injEq]

/-- C76: `PortVcControl` registers decode to the same value exactly when they agree in bits 0-3.
-/
theorem PortVcControl_reads (a b : U16) :
    PortVcControl.ofU16 a = PortVcControl.ofU16 b ↔
      a &&& 0x000f#16 = b &&& 0x000f#16 := by
  reads [PortVcControl_layout, PortVcControl.spec, PortVcControl.mk.injEq,
    VcArbitrationSelect_bits3]

/-- C76: `PortVcStatus` registers decode to the same value exactly when they agree in bits 0. -/
theorem PortVcStatus_reads (a b : U16) :
    PortVcStatus.ofU16 a = PortVcStatus.ofU16 b ↔
      a &&& 0x0001#16 = b &&& 0x0001#16 := by
  reads [PortVcStatus_layout, PortVcStatus.spec, PortVcStatus.mk.injEq]

/-- A reserved bit makes no difference to `PortVcCapability1`, a defined one does. -/
example : PortVcCapability1.ofU32 0xbd69fe29 = PortVcCapability1.ofU32 0x3d69fe29 ∧
    PortVcCapability1.ofU32 0xbd69fe29 ≠ PortVcCapability1.ofU32 0xbd69fe69 :=
  ⟨(PortVcCapability1_reads _ _).2 (by decide), fun h => absurd ((PortVcCapability1_reads _ _).1 h) (by decide)⟩

end Pcics.VirtualChannel
