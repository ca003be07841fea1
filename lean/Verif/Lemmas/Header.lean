import Verif.Spec.Header
import Verif.Lemmas.Tactics
import Verif.Lemmas.Bv
/- Register-level lemmas for the header. -/

namespace Pcics.Header
open Spec

theorem Command_layout (w : U16) :
    Command.ofU16 w = Command.spec w := by
  bits_simp [Command.ofU16, Command.spec]

theorem DevselTiming_total {ε : Type} (n : Nat) :
    (DevselTiming.ofU8 (BitVec.ofNat 8 (n % 4)) : Res ε DevselTiming) =
      .ok (DevselTiming.spec (BitVec.ofNat 8 (n % 4))) := by
  have h : n % 4 < 4 := Nat.mod_lt _ (by decide)
  generalize n % 4 = m at h
  match m, h with
  | 0, _ => rfl
  | 1, _ => rfl
  | 2, _ => rfl
  | 3, _ => rfl

theorem Status_layout {ε : Type} (w : U16) :
    (Status.ofU16 w : Res ε Status) = .ok (Status.spec w) := by
  bits_simp [Status.ofU16, Status.spec, DevselTiming_total]

theorem BridgeControl_layout (w : U16) :
    BridgeControl.ofU16 w = BridgeControl.spec w := by
  bits_simp [BridgeControl.ofU16, BridgeControl.spec]

theorem CardbusBridgeControl_layout (w : U16) :
    CardbusBridgeControl.ofU16 w = CardbusBridgeControl.spec w := by
  bits_simp [CardbusBridgeControl.ofU16, CardbusBridgeControl.spec]

theorem InterruptPin_values (b : U8) : InterruptPin.ofU8 b = InterruptPin.spec b := by
  revert b; decide +kernel

theorem BuiltInSelfTest_layout (b : U8) : BuiltInSelfTest.ofU8 b = BuiltInSelfTest.spec b := by
  revert b; decide +kernel

theorem ExpansionRom_layout (w : U32) : ExpansionRom.ofU32 w = ExpansionRom.spec w := by
  bits_simp [ExpansionRom.ofU32, ExpansionRom.spec]

theorem BridgeIoAddressRange_layout (b l : U8) (bu lu : U16) :
    BridgeIoAddressRange.new b l bu lu = BridgeIoAddressRange.spec b l bu lu := by
  have hn : ∀ x : U8, x &&& 0xf#8 = fld x 0 4 := by decide +kernel
  have h0 : ∀ x : U8, ((fld x 0 4 : U8) = 0 ∧ x &&& ~~~0xf#8 = 0) ↔ x = 0 := by decide +kernel
  have ha : ∀ x : U8, (x &&& ~~~0xf#8).setWidth 16 <<< 8 = (fld x 4 4 : U16) <<< 12 := by
    decide +kernel
  have hu : ∀ (x : U8) (u : U16), ((x &&& ~~~0xf#8).setWidth 32 <<< 8) ||| (u.setWidth 32 <<< 16)
      = cat u ((fld x 4 4 : U16) <<< 12) := by
    intro x u; bv_bits []
  unfold BridgeIoAddressRange.new BridgeIoAddressRange.spec
  simp only [hn, ha, hu]
  refine ite_congr' ⟨fun ⟨p, q, r, s⟩ => ⟨(h0 b).1 ⟨p, q⟩, (h0 l).1 ⟨r, s⟩⟩, fun ⟨p, q⟩ =>
    ⟨((h0 b).2 p).1, ((h0 b).2 p).2, ((h0 l).2 q).1, ((h0 l).2 q).2⟩⟩ rfl ?_
  refine ite_congr' Iff.rfl rfl (ite_congr' Iff.rfl rfl ?_)
  by_cases hh : (fld b 0 4 : U8) = fld l 0 4 <;> simp [hh]

theorem BridgePrefetchableMemory_layout (b l : U16) (bu lu : U32) :
    BridgePrefetchableMemory.new b l bu lu = BridgePrefetchableMemory.spec b l bu lu := by
  have hn : ∀ x : U16, x &&& 0xf#16 = fld x 0 4 := by intro x; bv_bits []
  have h0 : ∀ x : U16, ((fld x 0 4 : U16) = 0 ∧ x &&& ~~~0xf#16 = 0) ↔ x = 0 := by
    intro x
    rw [← hn]
    constructor
    · rintro ⟨h1, h2⟩
      have : x = (x &&& 0xf#16) ||| (x &&& ~~~0xf#16) := by bv_bits []
      rw [this, h1, h2]; rfl
    · rintro rfl; decide
  have hw : ∀ (x y : U16), (fld x 0 4 : U16) = fld y 0 4 ↔ (fld x 0 4 : U8) = fld y 0 4 := by
    intro x y
    simp only [BitVec.toNat_eq, fld, BitVec.toNat_setWidth]
    have := (BitVec.extractLsb' 0 4 x).isLt
    have := (BitVec.extractLsb' 0 4 y).isLt
    omega
  have hc : ∀ (x : U16) (k : Nat), k < 16 →
      ((fld x 0 4 : U16) = BitVec.ofNat 16 k ↔ (fld x 0 4 : U8) = BitVec.ofNat 8 k) := by
    intro x k hk
    simp only [BitVec.toNat_eq, fld, BitVec.toNat_setWidth, BitVec.toNat_ofNat]
    have := (BitVec.extractLsb' 0 4 x).isLt
    omega
  have ha : ∀ x : U16, (x &&& ~~~0xf#16).setWidth 32 <<< 16 = (fld x 4 12 : U32) <<< 20 := by
    intro x; bv_bits []
  have hu : ∀ (x : U16) (u : U32),
      ((x &&& ~~~0xf#16).setWidth 64 <<< 16) ||| (u.setWidth 64 <<< 32)
      = cat u ((fld x 4 12 : U32) <<< 20) := by
    intro x u; bv_bits []
  unfold BridgePrefetchableMemory.new BridgePrefetchableMemory.spec
  simp only [hn, ha, hu]
  refine ite_congr' ⟨fun ⟨p, q, r, s⟩ => ⟨(h0 b).1 ⟨p, q⟩, (h0 l).1 ⟨r, s⟩⟩, fun ⟨p, q⟩ =>
    ⟨((h0 b).2 p).1, ((h0 b).2 p).2, ((h0 l).2 q).1, ((h0 l).2 q).2⟩⟩ rfl ?_
  refine ite_congr' (and_congr (hc b 0 (by decide)) (hc l 0 (by decide))) rfl
    (ite_congr' (and_congr (hc b 1 (by decide)) (hc l 1 (by decide))) rfl ?_)
  by_cases hh : (fld b 0 4 : U8) = fld l 0 4
  · simp [hh, (hw b l).2 hh]
  · have := mt (hw b l).1 hh
    simp [hh, this]

theorem IoAccessAddressRange_layout (bl bu ll lu : U16) :
    IoAccessAddressRange.ofU16s bl bu ll lu = IoAccessAddressRange.spec bl bu ll lu := by
  have hc : ∀ x : U16, (x &&& 0b11#16).setWidth 8 = (fld x 0 2 : U8) := by intro x; bv_bits []
  have ha : ∀ x : U16, x &&& ~~~0b11#16 = (fld x 2 14 : U16) <<< 2 := by intro x; bv_bits []
  have hu : ∀ (u x : U16), (u.setWidth 32 <<< 16) ||| x.setWidth 32 = cat u x := by
    intro x u; bv_bits []
  unfold IoAccessAddressRange.ofU16s IoAccessAddressRange.spec
  simp only [hc, ha, hu, pick, BitVec.toNat_eq]
  split <;> simp_all

theorem parseNormal_run {ε : Type} (t : Bytes) (h : 48 ≤ t.length) :
    (parseNormal t : Res ε _) = .ok (byteAt t 36, byteAt t 44, byteAt t 45,
      HeaderType.Normal
       { base_addresses := BaseAddresses.new (rd32s t 0 6),
         cardbus_cis_pointer := rd32 t 24, sub_vendor_id := rd16 t 28, sub_device_id := rd16 t 30,
         expansion_rom := ExpansionRom.spec (rd32 t 32), min_grant := byteAt t 46,
         max_latency := byteAt t 47 }) := by
  bytes_simp [parseNormal, ExpansionRom_layout]
  rw [if_pos (by omega)]

theorem parseBridge_run {ε : Type} (t : Bytes) (h : 48 ≤ t.length) :
    (parseBridge t : Res ε _) = .ok (byteAt t 36, byteAt t 44, byteAt t 45,
      HeaderType.Bridge
       { base_addresses := BaseAddresses.new (rd32s t 0 2),
         primary_bus_number := byteAt t 8, secondary_bus_number := byteAt t 9,
         subordinate_bus_number := byteAt t 10, secondary_latency_timer := byteAt t 11,
         io_address_range := BridgeIoAddressRange.spec (byteAt t 12) (byteAt t 13)
           (rd16 t 32) (rd16 t 34),
         secondary_status := Status.spec (rd16 t 14),
         memory_base := rd16 t 16, memory_limit := rd16 t 18,
         prefetchable_memory := BridgePrefetchableMemory.spec (rd16 t 20) (rd16 t 22)
           (rd32 t 24) (rd32 t 28),
         expansion_rom := ExpansionRom.spec (rd32 t 40),
         bridge_control := BridgeControl.spec (rd16 t 46) }) := by
  bytes_simp [parseBridge, ExpansionRom_layout, Status_layout, BridgeControl_layout,
    BridgeIoAddressRange_layout, BridgePrefetchableMemory_layout]
  rw [if_pos (by omega)]

theorem parseCardbus_run {ε : Type} (t : Bytes) (h : 48 ≤ t.length) :
    (parseCardbus t : Res ε _) = .ok (byteAt t 4, byteAt t 44, byteAt t 45,
      HeaderType.Cardbus
       { base_addresses := BaseAddresses.new (rd32s t 0 1),
         secondary_status := Status.spec (rd16 t 6),
         pci_bus_number := byteAt t 8, cardbus_bus_number := byteAt t 9,
         subordinate_bus_number := byteAt t 10, cardbus_latency_timer := byteAt t 11,
         memory_base_address_0 := rd32 t 12, memory_limit_address_0 := rd32 t 16,
         memory_base_address_1 := rd32 t 20, memory_limit_address_1 := rd32 t 24,
         io_access_address_range_0 := IoAccessAddressRange.spec (rd16 t 28) (rd16 t 30)
           (rd16 t 32) (rd16 t 34),
         io_access_address_range_1 := IoAccessAddressRange.spec (rd16 t 36) (rd16 t 38)
           (rd16 t 40) (rd16 t 42),
         bridge_control := CardbusBridgeControl.spec (rd16 t 46),
         subsystem_vendor_id := none, subsystem_device_id := none,
         legacy_mode_base_address := none, reserved := none }) := by
  bytes_simp [parseCardbus, Status_layout, CardbusBridgeControl_layout,
    IoAccessAddressRange_layout]
  rw [if_pos (by omega)]

theorem htype_code (b : U8) : b &&& ~~~0x80#8 = fld b 0 7 := by revert b; decide +kernel
theorem htype_multi (b : U8) : (b &&& 0x80#8 != 0) = flag b 7 := by revert b; decide +kernel
theorem cap_mask (b : U8) : b &&& ~~~0b11#8 = (fld b 2 6 : U8) <<< 2 := by
  revert b; decide +kernel

theorem Header_run {ε : Type} (d : Bytes) (h : 64 ≤ d.length) :
    (Header.ofArray (d.take 64) : Res ε Header) = .ok (Header.spec d) := by
  have hl : (d.take 64).length = 64 := by simp [h]
  have ht : ∀ t : Bytes, t = ((d.take 64).drop 16).take 48 →
      t.length = 48 ∧ (∀ i, i < 48 → byteAt t i = byteAt d (16 + i)) ∧
      (∀ i, i + 1 < 48 → rd16 t i = rd16 d (16 + i)) ∧
      (∀ i, i + 3 < 48 → rd32 t i = rd32 d (16 + i)) := by
    rintro t rfl
    refine ⟨by simp; omega, ?_, ?_, ?_⟩
    · intro i hi; rw [byteAt_take _ _ _ hi, byteAt_drop, byteAt_take _ _ _ (by omega)]
    · intro i hi; rw [rd16_take _ _ _ hi, rd16_drop, rd16_take _ _ _ (by omega)]
    · intro i hi; rw [rd32_take _ _ _ hi, rd32_drop, rd32_take _ _ _ (by omega)]
  generalize hT : ((d.take 64).drop 16).take 48 = T at ht
  obtain ⟨h48, hb, h16, h32⟩ := ht T rfl
  bytes_simp [Header.ofArray, Status_layout, Command_layout, ClassCode.ofBytes,
    BuiltInSelfTest_layout, InterruptPin_values, hT, htype_multi]
  rw [if_pos (by omega)]
  have hc : ((d.take 64).drop 9 |>.take 3).length = 3 := by simp; omega
  rw [if_pos (by omega)]
  simp only [byteAt_take, byteAt_drop, rd16_take, Nat.reduceLT, Nat.reduceAdd]
  have key : (parseLayout (byteAt d 14) T : Res ε _) = .ok (capPointerByte d,
      pick (headerTypeCode d) [(0, byteAt d 0x3c), (1, byteAt d 0x3c), (2, byteAt d 0x3c)] 0,
      pick (headerTypeCode d) [(0, byteAt d 0x3d), (1, byteAt d 0x3d), (2, byteAt d 0x3d)] 0,
      HeaderType.spec d) := by
    unfold parseLayout capPointerByte HeaderType.spec headerTypeCode
    rw [htype_code]
    generalize hcode : (fld (byteAt d 14) 0 7 : U8) = c
    simp only [pick, BitVec.toNat_eq]
    have r32 : ∀ n, n ≤ 6 → rd32s T 0 n = rd32s d 16 n := by
      intro n hn
      simp only [rd32s]
      apply List.map_congr_left
      intro k hk
      have := List.mem_range.1 hk
      rw [h32 _ (by omega)]; congr 1; omega
    split
    · next h0 =>
      rw [parseNormal_run _ (by omega)]
      simp only [hb, h16, h32, r32, h0, Nat.reduceLT, Nat.reduceAdd, Nat.reduceLeDiff]
      rfl
    · next h0 =>
      rw [parseBridge_run _ (by omega)]
      simp only [hb, h16, h32, r32, h0, Nat.reduceLT, Nat.reduceAdd, Nat.reduceLeDiff]
      rfl
    · next h0 =>
      rw [parseCardbus_run _ (by omega)]
      simp only [hb, h16, h32, r32, h0, Nat.reduceLT, Nat.reduceAdd, Nat.reduceLeDiff]
      rfl
    · next h0 h1 h2 =>
      simp [show ¬ c.toNat = 0 from h0, show ¬ c.toNat = 1 from h1, show ¬ c.toNat = 2 from h2]
  rw [key]
  simp only [Res.bind_ok, cap_mask]
  rfl

end Pcics.Header
