import Verif.Lemmas.Reads
import Verif.Lemmas.Header
/- Properties C01..C11: the configuration header. -/

namespace Pcics.Header
open Spec

/-- A type 0 header used as a concrete case (Realtek-like, capabilities at 0x40). -/
def sampleNormal : Bytes :=
  [0xec, 0x10, 0x68, 0x81, 0x07, 0x04, 0x10, 0x02, 0x15, 0x00, 0x00, 0x02, 0x10, 0x00, 0x80, 0x00,
   0x01, 0xe0, 0x00, 0x00, 0x00, 0x00, 0x00, 0x00, 0x04, 0x00, 0x10, 0xf7, 0x00, 0x00, 0x00, 0x00,
   0x0c, 0x00, 0x00, 0xf0, 0x00, 0x00, 0x00, 0x00, 0x00, 0x00, 0x00, 0x00, 0x43, 0x10, 0x05, 0x85,
   0x00, 0x00, 0x00, 0x00, 0x43, 0x00, 0x00, 0x00, 0x00, 0x00, 0x00, 0x00, 0x0b, 0x01, 0x00, 0x00]

/-- A type 1 header used as a concrete case. -/
def sampleBridge : Bytes :=
  [0x86, 0x80, 0x10, 0x9d, 0x07, 0x04, 0x10, 0x00, 0xf1, 0x00, 0x04, 0x06, 0x10, 0x00, 0x81, 0x00,
   0x00, 0x00, 0x00, 0x00, 0x00, 0x00, 0x00, 0x00, 0x00, 0x01, 0x02, 0x00, 0x31, 0x51, 0x00, 0x20,
   0x00, 0xa1, 0x00, 0xa1, 0x01, 0x90, 0xf1, 0x9f, 0x01, 0x00, 0x00, 0x00, 0x02, 0x00, 0x00, 0x00,
   0x03, 0x00, 0x04, 0x00, 0x42, 0x00, 0x00, 0x00, 0x01, 0x08, 0x00, 0xc0, 0x0b, 0x02, 0x02, 0x00]

/-! ### C01 -/

/-- C01. Parsing succeeds exactly on slices of at least 64 bytes and otherwise reports an error;
it never panics. -/
theorem header_accepts_iff (d : Bytes) :
    Header.ofBytes d = if 64 ≤ d.length then .ok (Header.spec d) else .err () := by
  bytes_norm [Header.ofBytes]
  by_cases h : 64 ≤ d.length
  · simp [h, Header_run d h]
  · simp [h]

/-- C01. Only the first 64 bytes matter: any two dumps agreeing on them parse alike. -/
theorem header_prefix (d d' : Bytes) (h : 64 ≤ d.length) (h' : d.take 64 = d'.take 64) :
    Header.ofBytes d = Header.ofBytes d' := by
  have hl : 64 ≤ d'.length := by
    have := congrArg List.length h'
    simp at this; omega
  bytes_norm [Header.ofBytes]
  simp [h, hl, h']

example : 64 ≤ (sampleNormal ++ [1, 2, 3]).length ∧
    (sampleNormal ++ [1, 2, 3]).take 64 = sampleNormal.take 64 := by decide

/-! ### C02 -/

/-- C02. Common fields are the little-endian values at their PCI offsets. -/
theorem header_common_fields (d : Bytes) (h : Header) (hd : Header.ofBytes d = .ok h) :
    h.vendor_id = rd16 d 0x00 ∧ h.device_id = rd16 d 0x02 ∧
    h.command = Command.spec (rd16 d 0x04) ∧ h.status = Status.spec (rd16 d 0x06) ∧
    h.revision_id = byteAt d 0x08 ∧ h.class_code.interface = byteAt d 0x09 ∧
    h.class_code.sub = byteAt d 0x0a ∧ h.class_code.base = byteAt d 0x0b ∧
    h.cache_line_size = byteAt d 0x0c ∧ h.latency_timer = byteAt d 0x0d ∧
    h.bist = BuiltInSelfTest.spec (byteAt d 0x0f) := by
  rw [header_accepts_iff] at hd
  split at hd
  · cases hd; simp [Header.spec]
  · cases hd

example : ∃ h, Header.ofBytes sampleNormal = .ok h ∧ h.vendor_id = 0x10ec ∧ h.device_id = 0x8168 ∧
    h.class_code.base = 2 := ⟨_, by rw [header_accepts_iff, if_pos (by decide)], by decide⟩

/-! ### C03 -/

/-- C03. The layout is chosen by bits 6:0 of byte 0x0e, `is_multi_function` is bit 7, and the
registers of the chosen layout, the interrupt line and the interrupt pin are at their offsets. -/
theorem header_layout_selection (d : Bytes) (h : Header) (hd : Header.ofBytes d = .ok h) :
    h.is_multi_function = flag (byteAt d 0x0e) 7 ∧
    (headerTypeCode d = 0 → h.header_type = .Normal (Normal.spec d)) ∧
    (headerTypeCode d = 1 → h.header_type = .Bridge (Bridge.spec d)) ∧
    (headerTypeCode d = 2 → h.header_type = .Cardbus (Cardbus.spec d)) ∧
    (2 < (headerTypeCode d).toNat → h.header_type = .Reserved (headerTypeCode d)) ∧
    ((headerTypeCode d).toNat ≤ 2 →
      h.interrupt_line = byteAt d 0x3c ∧ h.interrupt_pin = InterruptPin.spec (byteAt d 0x3d)) := by
  rw [header_accepts_iff] at hd
  split at hd
  · cases hd
    simp only [Header.spec, HeaderType.spec]
    generalize headerTypeCode d = c
    refine ⟨trivial, ?_, ?_, ?_, ?_, ?_⟩
    · rintro rfl; rfl
    · rintro rfl; rfl
    · rintro rfl; rfl
    · intro hc
      have h0 : c ≠ 0#8 := by rintro rfl; simp at hc
      have h1 : c ≠ 1#8 := by rintro rfl; simp at hc
      have h2 : c ≠ 2#8 := by rintro rfl; simp at hc
      simp [pick, h0, h1, h2]
    · intro hc
      have : c = 0 ∨ c = 1 ∨ c = 2 := by
        simp only [BitVec.toNat_eq]; simp; omega
      rcases this with rfl | rfl | rfl <;> exact ⟨rfl, rfl⟩
  · cases hd

/-- C03, C56: the type byte given back by the layout is the code it was chosen by. -/
theorem header_type_code (d : Bytes) (h : Header) (hd : Header.ofBytes d = .ok h) :
    h.header_type.toU8 = headerTypeCode d := by
  rw [header_accepts_iff] at hd
  split at hd
  · cases hd
    simp only [Header.spec, HeaderType.spec, pick]
    generalize headerTypeCode d = c
    split
    · simp_all [HeaderType.toU8]
    · split
      · simp_all [HeaderType.toU8]
      · split <;> simp_all [HeaderType.toU8]
  · cases hd

/-- C03. Exactly the Normal and Bridge layouts have an expansion ROM register, at 0x30 and 0x38. -/
theorem header_expansion_rom (d : Bytes) (h : Header) (hd : Header.ofBytes d = .ok h) :
    h.header_type.expansion_rom =
      pick (headerTypeCode d) [(0, some (ExpansionRom.spec (rd32 d 0x30))),
        (1, some (ExpansionRom.spec (rd32 d 0x38)))] none := by
  rw [header_accepts_iff] at hd
  split at hd
  · cases hd
    simp only [Header.spec, HeaderType.spec, pick]
    generalize headerTypeCode d = c
    split
    · rfl
    · split
      · rfl
      · split <;> rfl
  · cases hd

example : headerTypeCode sampleNormal = 0 ∧ headerTypeCode sampleBridge = 1 ∧
    flag (byteAt sampleNormal 0x0e) 7 = true ∧
    headerTypeCode (sampleNormal.set 14 0x05) = 5 := by decide
example : (Bridge.spec sampleBridge).io_address_range = .IoAddr32 0x33000 0x45000 ∧
    (Bridge.spec sampleBridge).prefetchable_memory = .MemAddr64 0x190000000 0x29ff00000 := by
  decide

/-! ### C04 -/

/-- C04. The capabilities pointer is dword aligned, comes from byte 0x34 (layouts 0 and 1) or 0x14
(layout 2), and is zero for reserved layouts. -/
theorem header_capabilities_pointer (d : Bytes) (h : Header) (hd : Header.ofBytes d = .ok h) :
    h.capabilities_pointer.toNat % 4 = 0 ∧
    (headerTypeCode d = 0 ∨ headerTypeCode d = 1 →
      h.capabilities_pointer.toNat = (byteAt d 0x34).toNat / 4 * 4) ∧
    (headerTypeCode d = 2 → h.capabilities_pointer.toNat = (byteAt d 0x14).toNat / 4 * 4) ∧
    (2 < (headerTypeCode d).toNat → h.capabilities_pointer = 0) := by
  have key : ∀ b : U8, ((fld b 2 6 : U8) <<< 2).toNat = b.toNat / 4 * 4 := by decide +kernel
  rw [header_accepts_iff] at hd
  split at hd
  · cases hd
    simp only [Header.spec, capPointerByte]
    generalize headerTypeCode d = c
    refine ⟨by rw [key]; omega, ?_, ?_, ?_⟩
    · rintro (rfl | rfl) <;> rw [key] <;> rfl
    · rintro rfl; rw [key]; rfl
    · intro hc
      have h0 : c ≠ 0#8 := by rintro rfl; simp at hc
      have h1 : c ≠ 1#8 := by rintro rfl; simp at hc
      have h2 : c ≠ 2#8 := by rintro rfl; simp at hc
      simp [pick, h0, h1, h2, fld]
  · cases hd

example : (Header.spec sampleNormal).capabilities_pointer = 0x40 ∧
    (Header.spec (sampleNormal.set 14 0x05)).capabilities_pointer = 0 := by decide

/-! ### C05..C07 -/

theorem fld_inj {n m : Nat} {w w' : BitVec n} {lo len : Nat}
    (h : (fld w lo len : BitVec m) = fld w' lo len) (hm : len ≤ m) (i : Nat) (hi : i < len) :
    w.getLsbD (lo + i) = w'.getLsbD (lo + i) := by
  have := congrArg (fun x => x.getLsbD i) h
  simpa [-BitVec.getLsbD_eq_getElem, getLsbD_fld, hi, Nat.lt_of_lt_of_le hi hm] using this

/-- C05. The command register decodes to its architected bits... -/
theorem command_layout (w : U16) : Command.ofU16 w = Command.spec w := Command_layout w

/-- C05. ...and nothing is lost: distinct register values decode to distinct commands. -/
theorem command_injective (w w' : U16) (h : Command.ofU16 w = Command.ofU16 w') : w = w' := by
  rw [Command_layout, Command_layout] at h
  simp only [Command.spec, Command.mk.injEq, flag] at h
  obtain ⟨h0, h1, h2, h3, h4, h5, h6, h7, h8, h9, h10, h11⟩ := h
  apply BitVec.eq_of_getLsbD_eq
  intro i hi
  have h12 := fun i hi => fld_inj h11 (by decide) i hi
  by_cases hi' : i < 11
  · interval_cases i <;> assumption
  · have := h12 (i - 11) (by omega)
    rwa [show 11 + (i - 11) = i by omega] at this

/-- C06. Decoding a status register never panics and gives the architected bits. -/
theorem status_layout {ε : Type} (w : U16) :
    (Status.ofU16 w : Res ε Status) = .ok (Status.spec w) := Status_layout w

/-- C07. Bridge control bits. -/
theorem bridge_control_layout (w : U16) : BridgeControl.ofU16 w = BridgeControl.spec w :=
  BridgeControl_layout w

/-- C07. CardBus bridge control bits. -/
theorem cardbus_bridge_control_layout (w : U16) :
    CardbusBridgeControl.ofU16 w = CardbusBridgeControl.spec w := CardbusBridgeControl_layout w

example : (Command.ofU16 0x0507).interrupt_disable = true ∧
    (Command.ofU16 0x0507).serr_enable = true ∧ (Command.ofU16 0x0507).stepping = false := by
  decide

/-! ### C08 -/

/-- C08, C56: interrupt pin: the round trip is the identity. -/
theorem interrupt_pin_roundtrip (b : U8) : (InterruptPin.ofU8 b).toU8 = b := by
  revert b; decide +kernel

/-- C08. Expansion ROM: the round trip is the identity. -/
theorem expansion_rom_roundtrip (w : U32) : (ExpansionRom.ofU32 w).toU32 = w := by
  rw [ExpansionRom_layout]
  simp only [ExpansionRom.toU32, ExpansionRom.spec]
  bv_bits []

/-- C08. The 64-bit conversion is the zero-extended register. -/
theorem expansion_rom_u64 (w : U32) : (ExpansionRom.ofU32 w).toU64 = w.setWidth 64 := by
  rw [ExpansionRom.toU64, expansion_rom_roundtrip]

/-- C08. BIST: the round trip clears bits 5:4 and keeps everything else. -/
theorem bist_roundtrip (b : U8) : (BuiltInSelfTest.ofU8 b).toU8 = b &&& 0xcf#8 := by
  revert b; decide +kernel

/-! ### C09 -/

/-- C09. I/O window of a bridge. -/
theorem bridge_io_window (base limit : U8) (baseUpper limitUpper : U16) :
    BridgeIoAddressRange.new base limit baseUpper limitUpper =
      BridgeIoAddressRange.spec base limit baseUpper limitUpper :=
  BridgeIoAddressRange_layout _ _ _ _

/-- C09. Prefetchable window of a bridge. -/
theorem bridge_prefetchable_window (base limit : U16) (baseUpper limitUpper : U32) :
    BridgePrefetchableMemory.new base limit baseUpper limitUpper =
      BridgePrefetchableMemory.spec base limit baseUpper limitUpper :=
  BridgePrefetchableMemory_layout _ _ _ _

example : BridgeIoAddressRange.new 0x31 0x51 3 4 = .IoAddr32 0x33000 0x45000 ∧
    BridgeIoAddressRange.new 0x30 0x51 3 4 = .Malformed 0x30 0x51 ∧
    BridgeIoAddressRange.new 0x32 0x52 3 4 = .Reserved 0x32 0x52 ∧
    BridgePrefetchableMemory.new 0x9001 0x9ff1 1 2 = .MemAddr64 0x190000000 0x29ff00000 := by
  decide

/-! ### C10 -/

/-- C10 is false as stated: a decoded 32-bit CardBus window loses its capability code when
encoded, so decoding again gives a 16-bit window. -/
theorem cardbus_io_roundtrip_fails :
    ∃ a b c d x, (IoAccessAddressRange.ofU16s a b c d).toU16s = some x ∧
      IoAccessAddressRange.ofU16s x.1 x.2.1 x.2.2.1 x.2.2.2
        ≠ IoAccessAddressRange.ofU16s a b c d :=
  ⟨0x1001, 0x0002, 0x2000, 0x0003, (0x1000, 0x0002, 0x2000, 0x0003), by decide⟩

/-- C10 is false as stated: encoding a decoded window with a reserved capability code panics. -/
theorem cardbus_io_encode_panics :
    ∃ a b c d, (IoAccessAddressRange.ofU16s a b c d).toU16s = none :=
  ⟨2, 0, 0, 0, by decide⟩

/-- C10, the part that holds: 16-bit windows survive the round trip, encoding panics exactly on
reserved capability codes, and the address bits (but not the capability code) of 32-bit windows
survive encoding.  Missing: the capability code of 32-bit windows. -/
theorem cardbus_io_roundtrip_partial (a b c d : U16) :
    ((fld a 0 2 : U8) = 0 → ∃ x, (IoAccessAddressRange.ofU16s a b c d).toU16s = some x ∧
      IoAccessAddressRange.ofU16s x.1 x.2.1 x.2.2.1 x.2.2.2
        = IoAccessAddressRange.ofU16s a b c d) ∧
    ((fld a 0 2 : U8) = 1 → (IoAccessAddressRange.ofU16s a b c d).toU16s =
      some (a &&& 0xfffc#16, b, c &&& 0xfffc#16, d)) ∧
    ((IoAccessAddressRange.ofU16s a b c d).toU16s = none ↔ 2 ≤ (fld a 0 2 : U8).toNat) := by
  have h2 : ∀ x : U16, (fld ((fld x 2 14 : U16) <<< 2) 2 14 : U16) = fld x 2 14 := by
    intro x; bv_bits []
  have h0 : ∀ x : U16, (fld ((fld x 2 14 : U16) <<< 2) 0 2 : U8) = 0 := by
    intro x; bv_bits []
  have hm : ∀ x : U16, (fld x 2 14 : U16) <<< 2 &&& ~~~0b11#16 = (fld x 2 14 : U16) <<< 2 := by
    intro x; bv_bits []
  have hm' : ∀ x : U16, (fld x 2 14 : U16) <<< 2 = x &&& 0xfffc#16 := by intro x; bv_bits []
  have hlo : ∀ u x : U16, (cat u x : U32).setWidth 16 = x := by intro u x; bv_bits []
  have hhi : ∀ u x : U16, ((cat u x : U32) >>> 16).setWidth 16 = u := by intro u x; bv_bits []
  simp only [IoAccessAddressRange_layout]
  refine ⟨?_, ?_, ?_⟩
  · intro h
    refine ⟨_, by simp only [IoAccessAddressRange.spec, h, pick]; rfl, ?_⟩
    simp only [IoAccessAddressRange.spec, hm, h2, h0, h]
    rfl
  · intro h
    simp only [IoAccessAddressRange.spec, h, pick]
    simp [IoAccessAddressRange.toU16s, hlo, hhi, hm', BitVec.and_assoc]
  · have hlt : (fld a 0 2 : U8).toNat < 4 := by
      have := (BitVec.extractLsb' 0 2 a).isLt
      simp only [fld, BitVec.toNat_setWidth]; omega
    simp only [IoAccessAddressRange.spec, pick, BitVec.toNat_eq]
    generalize (fld a 0 2 : U8).toNat = n at hlt
    match n, hlt with
    | 0, _ => simp [IoAccessAddressRange.toU16s]
    | 1, _ => simp [IoAccessAddressRange.toU16s]
    | 2, _ => simp [IoAccessAddressRange.toU16s]
    | 3, _ => simp [IoAccessAddressRange.toU16s]

example : (fld (0x1000 : U16) 0 2 : U8) = 0 ∧ (fld (0x1001 : U16) 0 2 : U8) = 1 ∧
    IoAccessAddressRange.ofU16s 0x1000 7 0x2003 8 = .Addr16Bit 0x1000 0x2000 := by decide

/-- C10: exactly which windows, decoded or made by hand, survive encoding and decoding: the 16-bit
ones with aligned bounds, and no other. -/
theorem cardbus_io_roundtrip_iff (v : IoAccessAddressRange) :
    (∃ x, v.toU16s = some x ∧ IoAccessAddressRange.ofU16s x.1 x.2.1 x.2.2.1 x.2.2.2 = v) ↔
      ∃ base limit, v = .Addr16Bit base limit ∧ base.toNat % 4 = 0 ∧ limit.toNat % 4 = 0 := by
  have hz : ∀ x : U16, (fld (x &&& ~~~0b11#16) 0 2 : U8) = 0 := by intro x; bv_bits []
  have hb : ∀ x : U16, (fld (x &&& ~~~0b11#16) 2 14 : U16) <<< 2 = (fld x 2 14 : U16) <<< 2 := by
    intro x; bv_bits []
  have hn : ∀ x : U16, ((fld x 2 14 : U16) <<< 2).toNat = x.toNat / 4 * 4 := by
    intro x
    have := x.isLt
    simp only [fld, BitVec.toNat_shiftLeft, BitVec.toNat_setWidth, BitVec.extractLsb'_toNat,
      Nat.shiftLeft_eq, Nat.shiftRight_eq_div_pow]
    omega
  simp only [IoAccessAddressRange_layout]
  constructor
  · rintro ⟨x, hx, hv⟩
    cases v with
    | Addr16Bit base limit =>
      cases hx
      simp only [IoAccessAddressRange.spec, hz, hb, pick, if_true,
        IoAccessAddressRange.Addr16Bit.injEq] at hv
      have h1 := congrArg BitVec.toNat hv.1
      have h2 := congrArg BitVec.toNat hv.2
      rw [hn] at h1 h2
      exact ⟨base, limit, rfl, by omega, by omega⟩
    | Addr32Bit base limit =>
      cases hx
      simp only [IoAccessAddressRange.spec, hz, pick, if_true] at hv
      cases hv
    | Unknown => cases hx
  · rintro ⟨base, limit, rfl, h1, h2⟩
    refine ⟨_, rfl, ?_⟩
    simp only [IoAccessAddressRange.spec, hz, hb, pick, if_true,
        IoAccessAddressRange.Addr16Bit.injEq, BitVec.toNat_eq, hn]
    omega

example : (0x1000 : U16).toNat % 4 = 0 ∧ (0x20fc : U16).toNat % 4 = 0 := by decide

/-! ### C11 -/

/-- C11. The optional CardBus registers are read all together, from offsets 0, 2, 4 and 8 of the
slice following the header, when 64 bytes are available, otherwise an error is returned (and the
receiver is not modified, as the new value only exists in the `ok` case). -/
theorem cardbus_optional_registers (c : Cardbus) (d : Bytes) :
    c.trySetOptionalRegisters d =
      if 64 ≤ d.length then
        .ok { c with
          subsystem_vendor_id := some (rd16 d 0), subsystem_device_id := some (rd16 d 2),
          legacy_mode_base_address := some (rd32 d 4), reserved := some ((d.drop 8).take 56) }
      else .err () := by
  unfold Cardbus.trySetOptionalRegisters
  bytes_simp []

/-! ### C76 -/

theorem DevselTiming_bits2 {n : Nat} (a b : BitVec n) (lo : Nat) :
    DevselTiming.spec (fld a lo 2) = DevselTiming.spec (fld b lo 2) ↔
      ∀ i, i < 2 → a.getLsbD (lo + i) = b.getLsbD (lo + i) :=
  code_eq_iff _ 2 (by decide) (by decide +kernel) a b lo

/-- C76: `Command` registers decode to the same value only if they are equal. -/
theorem Command_reads (a b : U16) :
    Command.ofU16 a = Command.ofU16 b ↔
      a = b := by
  rw [eq_iff_bits a b]
  reads [Command_layout, Command.spec, Command.mk.injEq]

/-- C76: `Status` registers decode to the same value only if they are equal. -/
theorem Status_reads {ε : Type} (a b : U16) :
    (Status.ofU16 a : Res ε Status) = Status.ofU16 b ↔
      a = b := by
  rw [eq_iff_bits a b]
  reads [Status_layout, Status.spec, Status.mk.injEq, DevselTiming_bits2]

/-- C76: `BridgeControl` registers decode to the same value exactly when they agree in bits 0-11.
-/
theorem BridgeControl_reads (a b : U16) :
    BridgeControl.ofU16 a = BridgeControl.ofU16 b ↔
      a &&& 0x0fff#16 = b &&& 0x0fff#16 := by
  reads [BridgeControl_layout, BridgeControl.spec, BridgeControl.mk.injEq]

/-- C76: `CardbusBridgeControl` registers decode to the same value exactly when they agree in bits
0-3, 5-10. -/
theorem CardbusBridgeControl_reads (a b : U16) :
    CardbusBridgeControl.ofU16 a = CardbusBridgeControl.ofU16 b ↔
      a &&& 0x07ef#16 = b &&& 0x07ef#16 := by
  reads [CardbusBridgeControl_layout, CardbusBridgeControl.spec, CardbusBridgeControl.mk.injEq]

/-- C76: `BuiltInSelfTest` registers decode to the same value exactly when they agree in bits 0-3,
6-7. -/
theorem BuiltInSelfTest_reads (a b : U8) :
    BuiltInSelfTest.ofU8 a = BuiltInSelfTest.ofU8 b ↔
      a &&& 0xcf#8 = b &&& 0xcf#8 := by
  reads [BuiltInSelfTest_layout, BuiltInSelfTest.spec, BuiltInSelfTest.mk.injEq]

/-- C76: `ExpansionRom` registers decode to the same value only if they are equal. -/
theorem ExpansionRom_reads (a b : U32) :
    ExpansionRom.ofU32 a = ExpansionRom.ofU32 b ↔
      a = b := by
  rw [eq_iff_bits a b]
  reads [ExpansionRom_layout, ExpansionRom.spec, ExpansionRom.mk.injEq]

/-- A reserved bit makes no difference to `BridgeControl`, a defined one does. -/
example : BridgeControl.ofU16 0xbb2e = BridgeControl.ofU16 0x3b2e ∧
    BridgeControl.ofU16 0xbb2e ≠ BridgeControl.ofU16 0xbb6e :=
  ⟨(BridgeControl_reads _ _).2 (by decide), fun h => absurd ((BridgeControl_reads _ _).1 h) (by decide)⟩

end Pcics.Header
