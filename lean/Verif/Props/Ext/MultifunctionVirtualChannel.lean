import Verif.Lemmas.Reads
import Verif.Spec.Ext.MultifunctionVirtualChannel
import Verif.Props.Ext.VirtualChannel
/- Properties of src/extended_capabilities/multifunction_virtual_channel.rs -/

namespace Pcics.MultifunctionVirtualChannel
open Spec

/-- C53: meaning of every code of `FunctionArbitrationSelect`. -/
theorem FunctionArbitrationSelect_values (b : U8) :
    FunctionArbitrationSelect.ofU8 b = FunctionArbitrationSelect.spec b := by
  revert b; decide +kernel

/-- C53: every field of `PortVcCapability1` is at its bit position. -/
theorem PortVcCapability1_layout (w : U32) :
    PortVcCapability1.ofU32 w = PortVcCapability1.spec w := by
  bits_simp [PortVcCapability1.ofU32, PortVcCapability1.spec, FunctionArbitrationTableEntrySize.ofU8,
    VirtualChannel.ReferenceClock_values]

/-- C53: every field of `VcResourceCapability` is at its bit position. -/
theorem VcResourceCapability_layout (w : U32) :
    VcResourceCapability.ofU32 w = VcResourceCapability.spec w := by
  bits_simp [VcResourceCapability.ofU32, VcResourceCapability.spec]

/-- C53: every field of `VcResourceControl` is at its bit position. -/
theorem VcResourceControl_layout (w : U32) :
    VcResourceControl.ofU32 w = VcResourceControl.spec w := by
  bits_simp [VcResourceControl.ofU32, VcResourceControl.spec, FunctionArbitrationSelect_values]

/-- C53: every field of `VcResourceStatus` is at its bit position. -/
theorem VcResourceStatus_layout (w : U16) :
    VcResourceStatus.ofU16 w = VcResourceStatus.spec w := by
  bits_simp [VcResourceStatus.ofU16, VcResourceStatus.spec]

theorem select_toU8 (b : U8) : (FunctionArbitrationSelect.spec b).toU8 = b := by
  revert b; decide +kernel

/-- C53, C56: encoding a decoded `FunctionArbitrationSelect` gives back the code. -/
theorem FunctionArbitrationSelect_roundtrip (b : U8) :
    (FunctionArbitrationSelect.ofU8 b).toU8 = b := by
  rw [FunctionArbitrationSelect_values, select_toU8]

/-- C53: the number of phases of every function arbitration scheme code, for instance 128 for code 4. -/
theorem functionPhases_eq (b : U8) :
    (FunctionArbitrationSelect.spec b).function_arbitration_table_length =
      VirtualChannel.portPhases b := by
  revert b; decide +kernel

/-- C44: iterating a function arbitration table with entries of 1, 2, 4 or 8 bits yields all entries
of all bytes, in order from the low bits up, and nothing else. -/
theorem FunctionArbitrationTable_items (t : Bytes) (size : Nat)
    (hs : size = 1 ∨ size = 2 ∨ size = 4 ∨ size = 8) (k : Nat) :
    takeIter FunctionArbitrationTable.next k (.new t size) = ((packed size t).map .mk).take k := by
  by_cases h8 : size = 8
  · subst h8
    rw [packed_eight]
    exact bytes_iter FunctionArbitrationTable.next .mk (fun d => ⟨d, 8, 0, 0⟩) rfl (fun _ _ => rfl) k t
  · have hlt : size < 8 := by omega
    have hm : 8 / size * size = 8 := by rcases hs with rfl | rfl | rfl | rfl <;> rfl
    refine packed_iter FunctionArbitrationTable.next .mk (fun d j b => ⟨d, size, j, b⟩) size hm
      ?_ ?_ ?_ k t 0
    · intro b
      simp [FunctionArbitrationTable.next, h8]
    · intro x r b
      have := VirtualChannel.pat_entry size 0 x hlt (by omega)
      simp only [FunctionArbitrationTable.next, h8, if_false, if_true, Option.bind_eq_bind,
        Option.bind_some, this, Nat.zero_add]
    · intro d j b hj0 hj
      have h1 : (j + 1) * size ≤ 8 := by
        rw [← hm]; exact Nat.mul_le_mul_right _ hj
      rw [Nat.add_mul, Nat.one_mul] at h1
      have hne : j * size ≠ 0 := by
        have : 0 < size := by omega
        exact Nat.ne_of_gt (Nat.mul_pos hj0 this)
      have := VirtualChannel.pat_entry size (j * size) b hlt h1
      simp only [FunctionArbitrationTable.next, h8, hne, if_false, Option.bind_eq_bind,
        Option.bind_some, this]

theorem evc_ofBytes (d : Bytes) :
    ExtendedVirtualChannel.ofBytes d =
      if 12 ≤ d.length then some {
        vc_resource_capability := .spec (rd32 d 0), vc_resource_control := .spec (rd32 d 4),
        vc_resource_status := .spec (rd16 d 10), function_arbitration_table := none }
      else none := by
  by_cases h : 12 ≤ d.length
  · bytes_len [ExtendedVirtualChannel.ofBytes, Option.bind_eq_bind, VcResourceCapability_layout,
      VcResourceControl_layout, VcResourceStatus_layout]
  · bytes_len [ExtendedVirtualChannel.ofBytes, Option.bind_eq_bind]

theorem rd32_u32le (d : Bytes) (i : Nat) :
    rd32 d i = u32le (byteAt d i) (byteAt d (i + 1)) (byteAt d (i + 2)) (byteAt d (i + 3)) :=
  rd32_append d i

theorem getLsbD_rd16 (d : Bytes) (i j : Nat) :
    (rd16 d i).getLsbD j = bif decide (j < 8) then (byteAt d i).getLsbD j
      else (byteAt d (i + 1)).getLsbD (j - 8) := by
  rw [rd16_append, BitVec.getLsbD_append]
  by_cases h : j < 8 <;> simp [-BitVec.getLsbD_eq_getElem, h]

/-- C53: the bytes of a VC resource, decoded and encoded again. -/
theorem ExtendedVirtualChannel_roundtrip (d : Bytes) (h : 12 ≤ d.length) :
    (ExtendedVirtualChannel.ofBytes d).map ExtendedVirtualChannel.toBytes =
      some (List.zipWith (· &&& ·) d usedBits) := by
  have hd : List.zipWith (· &&& ·) d usedBits =
      [byteAt d 0 &&& 0xff, byteAt d 1 &&& 0, byteAt d 2 &&& 0x7f, byteAt d 3 &&& 0xff,
        byteAt d 4 &&& 0xff, byteAt d 5 &&& 0, byteAt d 6 &&& 0x0f, byteAt d 7 &&& 0x87,
        byteAt d 8 &&& 0, byteAt d 9 &&& 0, byteAt d 10 &&& 0x03, byteAt d 11 &&& 0] := by
    match d, h with
    | b0 :: b1 :: b2 :: b3 :: b4 :: b5 :: b6 :: b7 :: b8 :: b9 :: b10 :: b11 :: r, _ =>
      cases r <;> rfl
  rw [evc_ofBytes, if_pos h, Option.map_some, hd]
  have e4 : ∀ w : U32, leBytes 4 w = [(fld w 0 8 : U8), fld w 8 8, fld w 16 8, fld w 24 8] := by
    intro w
    simp only [leBytes, List.range, List.range.loop, List.map_cons, List.map_nil, List.cons.injEq,
      and_true]
    refine ⟨?_, ?_, ?_, ?_⟩ <;> bv_bits []
  have e2 : ∀ w : U16, leBytes 2 w = [(fld w 0 8 : U8), fld w 8 8] := by
    intro w
    simp only [leBytes, List.range, List.range.loop, List.map_cons, List.map_nil, List.cons.injEq,
      and_true]
    refine ⟨?_, ?_⟩ <;> bv_bits []
  have f0 : ∀ a b c d : U8, (fld (u32le a b c d) 0 8 : U8) = a := by
    intros; bv_bits [getLsbD_u32le]
  have f1 : ∀ a b c d : U8, (fld (u32le a b c d) 8 8 : U8) = b := by
    intros; bv_bits [getLsbD_u32le]
  have f2 : ∀ a b c d : U8, (fld (u32le a b c d) 16 8 : U8) = c := by
    intros; bv_bits [getLsbD_u32le]
  have f3 : ∀ a b c d : U8, (fld (u32le a b c d) 24 8 : U8) = d := by
    intros; bv_bits [getLsbD_u32le]
  have g : ∀ a b : U8, ((a ++ b : U16)) = cat a b := by
    intros; simp [cat]
  have g0 : ∀ a b : U8, (fld (cat a b : U16) 0 8 : U8) = b := by
    intros; bv_bits []
  have g1 : ∀ a b : U8, (fld (cat a b : U16) 8 8 : U8) = a := by
    intros; bv_bits []
  simp only [ExtendedVirtualChannel.toBytes, e4, e2, VcResourceCapability.toU32,
    VcResourceControl.toU32, VcResourceStatus.toU16, f0, f1, f2, f3, g, g0, g1,
    VcResourceCapability.spec, VcResourceControl.spec, VcResourceStatus.spec,
    FunctionArbitrationCapability.toU8, select_toU8, rd32_u32le,
    List.cons_append, List.nil_append, Nat.reduceAdd]
  have z : ∀ b : U8, b &&& 0 = 0 := by decide +kernel
  simp only [Option.some.injEq, List.cons.injEq, and_true]
  refine ⟨?_, ?_, ?_, ?_, ?_, ?_, ?_, ?_, ?_, ?_, ?_, ?_⟩ <;> first
    | exact (z _).symm
    | (bv_bits [getLsbD_u32le, getLsbD_rd16]; done)

theorem mfvc_next (d : Bytes) (c : U8) (size off : Nat) (hc : c ≠ 0) (hl : off + 12 ≤ d.length) :
    ExtendedVirtualChannels.next ⟨d, c, size, off⟩ =
      some (.spec size d off, ⟨d, c - 1, size, off + 12⟩) := by
  have hg : getFrom d off = some (d.drop off) := by rw [getFrom_eq, if_pos (by omega)]
  have he : ExtendedVirtualChannel.ofBytes (d.drop off) = some {
        vc_resource_capability := .spec (rd32 d off), vc_resource_control := .spec (rd32 d (off + 4)),
        vc_resource_status := .spec (rd16 d (off + 10)), function_arbitration_table := none } := by
    rw [evc_ofBytes, if_pos (by rw [List.length_drop]; omega)]
    simp only [rd32_drop, rd16_drop, Nat.add_zero]
  simp only [ExtendedVirtualChannels.next, hc, if_false, hg, he, Option.bind_eq_bind,
    Option.bind_some, Option.some.injEq, Prod.mk.injEq, and_true]
  have hcap : (VcResourceCapability.spec (rd32 d off)).function_arbitration_table_offset =
    fld (rd32 d off) 24 8 := rfl
  have hctl : (VcResourceControl.spec (rd32 d (off + 4))).function_arbitration_select =
    .spec (fld (rd32 d (off + 4)) 17 3) := rfl
  rw [hcap, hctl, functionPhases_eq]
  unfold ExtendedVirtualChannel.spec
  generalize (fld (rd32 d off) 24 8 : U8).toNat = o
  generalize VirtualChannel.portPhases (fld (rd32 d (off + 4)) 17 3) = p
  simp only [getRange, Nat.mul_comm o]
  by_cases h2 : 2 ≤ o
  · by_cases h3 : 16 * o + size * p / 8 ≤ d.length
    · rw [if_pos h2, if_pos ⟨Nat.le_add_right _ _, h3⟩, if_pos ⟨h2, h3⟩, List.drop_take,
        Nat.add_sub_cancel_left]
      rfl
    · rw [if_pos h2, if_neg (fun h => h3 h.2), if_neg (fun h => h3 h.2)]
      rfl
  · rw [if_neg h2]
    simp only [h2, false_and, if_false]

theorem mfvc_take (d : Bytes) (k n size off : Nat) (c : U8) (hc : c.toNat = n) :
    takeIter ExtendedVirtualChannels.next k ⟨d, c, size, off⟩ =
      ((List.range (min n ((d.length - off) / 12))).map fun i =>
        .spec size d (off + 12 * i)).take k := by
  induction k generalizing n off c with
  | zero => simp [takeIter]
  | succ k ih =>
    cases n with
    | zero =>
      have : c = 0#8 := BitVec.eq_of_toNat_eq (by simpa using hc)
      subst this
      rw [takeIter, Nat.zero_min]
      rfl
    | succ n =>
      have hne : c ≠ (0 : U8) := by rintro rfl; simp at hc
      by_cases hl : off + 12 ≤ d.length
      · have hc' : (c - 1).toNat = n := by
          have := c.isLt
          simp [BitVec.toNat_sub]; omega
        rw [takeIter, mfvc_next d c size off hne hl]
        simp only
        rw [ih n (off + 12) (c - 1) hc',
          show min (n + 1) ((d.length - off) / 12) = 1 + min n ((d.length - (off + 12)) / 12) by omega,
          range_add_map]
        simp only [List.range_one, List.map_cons, List.map_nil, List.cons_append, List.nil_append,
          List.take_succ_cons, Nat.mul_zero, Nat.add_zero, Nat.mul_add, Nat.mul_one, Nat.add_assoc]
      · have hn : ExtendedVirtualChannels.next ⟨d, c, size, off⟩ = none := by
          simp only [ExtendedVirtualChannels.next, hne, if_false, getFrom]
          by_cases ho : off ≤ d.length
          · rw [if_pos ho, Option.bind_eq_bind, Option.bind_some, evc_ofBytes,
              if_neg (by rw [List.length_drop]; omega)]
            rfl
          · rw [if_neg ho]; rfl
        rw [takeIter, hn, show min (n + 1) ((d.length - off) / 12) = 0 by omega]
        rfl

theorem fld3_lt (w : U32) : (fld w 0 3 : U8).toNat < 8 := by
  simp only [fld, BitVec.toNat_setWidth]
  exact Nat.lt_of_le_of_lt (Nat.mod_le _ _) (BitVec.isLt _)

theorem evcs_new {ε : Type} (d : Bytes) (w : U32) (size : Nat) :
    (ExtendedVirtualChannels.new d (fld w 0 3) size : Res ε _) =
      .ok ⟨d, fld w 0 3 + 1, size, 16⟩ := by
  have hne : (fld w 0 3 : U8) ≠ 255 := by
    intro e
    have := fld3_lt w
    rw [e] at this; revert this; decide
  simp only [ExtendedVirtualChannels.new, hne, if_false]

/-- C53: a Multi-Function Virtual Channel capability parses iff its 16 bytes are there and its VC
arbitration table, if it has one, is inside the capability; every register is at its offset. -/
theorem MultifunctionVirtualChannel_bytes (d : Bytes) :
    MultifunctionVirtualChannel.ofBytes d =
      if d.length < 16 then .err .PortVcData else (vcTable d).map' (.spec d) := by
  by_cases h : d.length < 16
  · rw [if_pos h]
    bytes_len [MultifunctionVirtualChannel.ofBytes]
  rw [if_neg h]
  have hb : (PortVcCapability1.spec (rd32 d 4)).function_arbitration_table_entry_size.bits =
      2 ^ (fld (rd32 d 4) 10 2 : U8).toNat := by
    simp only [PortVcCapability1.spec, FunctionArbitrationTableEntrySize.bits, Nat.one_shiftLeft]
  have hx : (PortVcCapability1.spec (rd32 d 4)).extended_vc_count = fld (rd32 d 4) 0 3 := rfl
  have ho : (VirtualChannel.PortVcCapability2.spec (rd32 d 8)).vc_arbitration_table_offset =
      fld (rd32 d 8) 24 8 := rfl
  have hv : (VirtualChannel.PortVcControl.spec (rd16 d 12)).vc_arbitration_select =
      .spec (fld (rd16 d 12) 1 3) := rfl
  have e0 : (fld (rd32 d 8) 24 8 : U8) = 0 ↔ (fld (rd32 d 8) 24 8 : U8).toNat = 0 := by
    constructor
    · intro e; rw [e]; rfl
    · intro e; exact BitVec.eq_of_toNat_eq e
  have e1 : (fld (rd32 d 8) 24 8 : U8) < 2 ↔ (fld (rd32 d 8) 24 8 : U8).toNat < 2 := Iff.rfl
  bytes_len [MultifunctionVirtualChannel.ofBytes, PortVcCapability1_layout,
    VirtualChannel.PortVcCapability2_layout, VirtualChannel.PortVcControl_layout,
    VirtualChannel.PortVcStatus_layout, hb, hx, ho, hv, evcs_new, VirtualChannel.vcPhases_eq, e0, e1]
  simp only [vcTable]
  have hp : VirtualChannel.vcPhases (fld (rd16 d 12) 1 3) * 4 / 8 =
    VirtualChannel.vcPhases (fld (rd16 d 12) 1 3) / 2 := by omega
  rw [hp]
  generalize VirtualChannel.vcPhases (fld (rd16 d 12) 1 3) / 2 = len
  generalize hog : (fld (rd32 d 8) 24 8 : U8).toNat = o
  by_cases h0 : o = 0
  · rw [if_pos h0, if_pos h0]; rfl
  rw [if_neg h0, if_neg h0]
  by_cases h1 : o = 1
  · rw [if_pos (by omega), if_pos h1]; rfl
  rw [if_neg (by omega), if_neg h1, Nat.mul_comm o]
  by_cases h2 : d.length < 16 * o
  · rw [if_pos h2, if_neg (by omega)]; rfl
  rw [if_neg h2, if_pos (by omega)]
  by_cases h3 : d.length < 16 * o + len
  · rw [if_pos h3, if_neg (by omega)]; rfl
  rw [if_neg h3, if_pos (by omega)]
  rfl

/-- C53: the VC resources of a parsed capability are the default VC and the announced extended VCs
that are complete, in order, each from its own registers and with its own function arbitration
table. -/
theorem ExtendedVirtualChannels_items (d : Bytes) (m : MultifunctionVirtualChannel)
    (h : MultifunctionVirtualChannel.ofBytes d = .ok m) (k : Nat) :
    takeIter ExtendedVirtualChannels.next k m.extended_virtual_channels =
      ((List.range (min ((fld (rd32 d 4) 0 3 : U8).toNat + 1) ((d.length - 16) / 12))).map fun i =>
        .spec (2 ^ (fld (rd32 d 4) 10 2 : U8).toNat) d (16 + 12 * i)).take k := by
  have hm : m.extended_virtual_channels = ⟨d, fld (rd32 d 4) 0 3 + 1,
      2 ^ (fld (rd32 d 4) 10 2 : U8).toNat, 16⟩ := by
    rw [MultifunctionVirtualChannel_bytes] at h
    split at h
    · cases h
    · cases hv : vcTable d with
      | ok t => rw [hv] at h; cases h; rfl
      | err e => rw [hv] at h; cases h
      | panic => rw [hv] at h; cases h
  rw [hm, mfvc_take d k ((fld (rd32 d 4) 0 3 : U8).toNat + 1)]
  have := fld3_lt (rd32 d 4)
  rw [BitVec.toNat_add]
  exact Nat.mod_eq_of_lt (by simp; omega)

theorem pow_fld (w : U32) :
    2 ^ (fld w 10 2 : U8).toNat = 1 ∨ 2 ^ (fld w 10 2 : U8).toNat = 2 ∨
      2 ^ (fld w 10 2 : U8).toNat = 4 ∨ 2 ^ (fld w 10 2 : U8).toNat = 8 := by
  have h : (fld w 10 2 : U8).toNat < 4 := by
    simp only [fld, BitVec.toNat_setWidth]
    exact Nat.lt_of_le_of_lt (Nat.mod_le _ _) (BitVec.isLt _)
  generalize (fld w 10 2 : U8).toNat = n at h
  have : n = 0 ∨ n = 1 ∨ n = 2 ∨ n = 3 := by omega
  rcases this with rfl | rfl | rfl | rfl <;> decide

/-- C53, C44: every function arbitration table of a parsed capability has entries of 1, 2, 4 or 8
bits, as announced by bits 11:10 of the first register, so that all of its entries are yielded. -/
theorem function_entry_size (d : Bytes) (m : MultifunctionVirtualChannel)
    (h : MultifunctionVirtualChannel.ofBytes d = .ok m) (k : Nat) (e : ExtendedVirtualChannel)
    (he : e ∈ takeIter ExtendedVirtualChannels.next k m.extended_virtual_channels)
    (t : FunctionArbitrationTable) (ht : e.function_arbitration_table = some t) :
    t.entry_size_bits = 2 ^ (fld (rd32 d 4) 10 2 : U8).toNat ∧
    (t.entry_size_bits = 1 ∨ t.entry_size_bits = 2 ∨ t.entry_size_bits = 4 ∨
      t.entry_size_bits = 8) ∧
    ∀ j, takeIter FunctionArbitrationTable.next j t =
      ((packed t.entry_size_bits t.data).map .mk).take j := by
  rw [ExtendedVirtualChannels_items d m h k] at he
  obtain ⟨i, -, rfl⟩ := List.mem_map.1 (List.mem_of_mem_take he)
  have ht' : t = .new t.data (2 ^ (fld (rd32 d 4) 10 2 : U8).toNat) := by
    simp only [ExtendedVirtualChannel.spec] at ht
    split at ht
    · cases ht; rfl
    · cases ht
  have hs : t.entry_size_bits = 2 ^ (fld (rd32 d 4) 10 2 : U8).toNat := by rw [ht']; rfl
  refine ⟨hs, hs ▸ pow_fld _, fun j => ?_⟩
  conv_lhs => rw [ht']
  rw [hs, FunctionArbitrationTable_items _ _ (pow_fld _)]

/-- A capability with one VC resource, a VC arbitration table at 20h and a function arbitration table
(32 entries of 4 bits) at 30h. -/
def sample : Bytes :=
  [0x08, 0, 1, 0, 0, 0x08, 0, 0, 0x02, 0, 0, 2, 0x02, 0, 0, 0,
   0x02, 0xff, 0, 3, 0xff, 0, 2, 0x80, 0xff, 0, 0xff, 0, 0, 0, 0, 0,
   0x10, 0x32, 0, 0, 0, 0, 0, 0, 0, 0, 0, 0, 0, 0, 0, 0,
   0x54, 0x76, 0, 0, 0, 0, 0, 0, 0, 0, 0, 0, 0, 0, 0, 0]

example : (MultifunctionVirtualChannel.ofBytes sample).map' (fun m =>
    (takeIter ExtendedVirtualChannels.next 3 m.extended_virtual_channels).map fun e =>
      e.function_arbitration_table.map (takeIter FunctionArbitrationTable.next 4)) =
    .ok [some [⟨4⟩, ⟨5⟩, ⟨6⟩, ⟨7⟩]] := by decide +kernel

example : (ExtendedVirtualChannel.ofBytes (sample.drop 16)).map ExtendedVirtualChannel.toBytes =
    some [0x02, 0, 0, 3, 0xff, 0, 2, 0x80, 0, 0, 3, 0] := by decide +kernel

/-! ### C76 -/

theorem FunctionArbitrationSelect_bits3 {n : Nat} (a b : BitVec n) (lo : Nat) :
    FunctionArbitrationSelect.spec (fld a lo 3) = FunctionArbitrationSelect.spec (fld b lo 3) ↔
      ∀ i, i < 3 → a.getLsbD (lo + i) = b.getLsbD (lo + i) :=
  code_eq_iff _ 3 (by decide) (by decide +kernel) a b lo

/-- C76: `PortVcCapability1` registers decode to the same value exactly when they agree in bits
0-2, 4-6, 8-11. -/
theorem PortVcCapability1_reads (a b : U32) :
    PortVcCapability1.ofU32 a = PortVcCapability1.ofU32 b ↔
      a &&& 0x00000f77#32 = b &&& 0x00000f77#32 := by
  reads [PortVcCapability1_layout, PortVcCapability1.spec, PortVcCapability1.mk.injEq,
    VirtualChannel.ReferenceClock_bits2, FunctionArbitrationTableEntrySize.mk.injEq]

/-- C76: `VcResourceCapability` registers decode to the same value exactly when they agree in bits
0-7, 16-22, 24-31. -/
theorem VcResourceCapability_reads (a b : U32) :
    VcResourceCapability.ofU32 a = VcResourceCapability.ofU32 b ↔
      a &&& 0xff7f00ff#32 = b &&& 0xff7f00ff#32 := by
  reads [VcResourceCapability_layout, VcResourceCapability.spec, VcResourceCapability.mk.injEq,
    FunctionArbitrationCapability.mk.injEq]

/-- C76: `VcResourceControl` registers decode to the same value exactly when they agree in bits
0-7, 16-19, 24-26, 31. -/
theorem VcResourceControl_reads (a b : U32) :
    VcResourceControl.ofU32 a = VcResourceControl.ofU32 b ↔
      a &&& 0x870f00ff#32 = b &&& 0x870f00ff#32 := by
  reads [VcResourceControl_layout, VcResourceControl.spec, VcResourceControl.mk.injEq,
    FunctionArbitrationSelect_bits3]

/-- C76: `VcResourceStatus` registers decode to the same value exactly when they agree in bits
0-1. -/
theorem VcResourceStatus_reads (a b : U16) :
    VcResourceStatus.ofU16 a = VcResourceStatus.ofU16 b ↔
      a &&& 0x0003#16 = b &&& 0x0003#16 := by
  reads [VcResourceStatus_layout, VcResourceStatus.spec, VcResourceStatus.mk.injEq]

/-- A reserved bit makes no difference to `PortVcCapability1`, a defined one does. -/
example : PortVcCapability1.ofU32 0x5f2dd97f = PortVcCapability1.ofU32 0xdf2dd97f ∧
    PortVcCapability1.ofU32 0x5f2dd97f ≠ PortVcCapability1.ofU32 0x5f2dd93f :=
  ⟨(PortVcCapability1_reads _ _).2 (by decide), fun h => absurd ((PortVcCapability1_reads _ _).1 h) (by decide)⟩

end Pcics.MultifunctionVirtualChannel
