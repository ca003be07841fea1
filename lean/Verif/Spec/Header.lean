import Verif.Model.Header
import Verif.Spec
/-
Specification of the 64-byte configuration header: the layouts of PCI Local Bus,
PCI-to-PCI Bridge and PC Card (CardBus) headers, written from memory and the documentation in /repo.
-/

namespace Pcics.Header
open Spec

/-- Layout of `Command`. -/
def Command.spec (w : U16) : Command :=
  {
    io_space := flag w 0, memory_space := flag w 1, bus_master := flag w 2,
    special_cycles := flag w 3, memory_write_and_invalidate_enable := flag w 4,
    vga_palette_snoop := flag w 5, parity_error_response := flag w 6, stepping := flag w 7,
    serr_enable := flag w 8, fast_back_to_back_enable := flag w 9,
    interrupt_disable := flag w 10, reserved := fld w 11 5 }

/-- Values of `DevselTiming`. -/
def DevselTiming.spec (c : U8) : DevselTiming :=
  pick c [(0, .Fast), (1, .Medium), (2, .Slow)] .Undefined

/-- Layout of `Status`. -/
def Status.spec (w : U16) : Status :=
  {
    reserved := fld w 0 3, interrupt_status := flag w 3, capabilities_list := flag w 4,
    is_66mhz_capable := flag w 5, user_definable_features := flag w 6,
    fast_back_to_back_capable := flag w 7, master_data_parity_error := flag w 8,
    devsel_timing := DevselTiming.spec (fld w 9 2), signaled_target_abort := flag w 11,
    received_target_abort := flag w 12, received_master_abort := flag w 13,
    system_error := flag w 14, detected_parity_error := flag w 15 }

/-- Layout of `BridgeControl`. -/
def BridgeControl.spec (w : U16) : BridgeControl :=
  {
    parity_error_response_enable := flag w 0, serr_enable := flag w 1, isa_enable := flag w 2,
    vga_enable := flag w 3, vga_16_enable := flag w 4, master_abort_mode := flag w 5,
    secondary_bus_reset := flag w 6, fast_back_to_back_enable := flag w 7,
    primary_discard_timer := flag w 8, secondary_discard_timer := flag w 9,
    discard_timer_status := flag w 10, discard_timer_serr_enable := flag w 11 }

/-- Layout of `CardbusBridgeControl`. -/
def CardbusBridgeControl.spec (w : U16) : CardbusBridgeControl :=
  {
    parity_error_response_enable := flag w 0, serr_enable := flag w 1, isa_enable := flag w 2,
    vga_enable := flag w 3, master_abort_mode := flag w 5, cardbus_reset := flag w 6,
    ireq_int_enable := flag w 7, memory_0_prefetch_enable := flag w 8,
    memory_1_prefetch_enable := flag w 9, write_posting_enable := flag w 10 }

/-- Values of the Interrupt Pin register. -/
def InterruptPin.spec (c : U8) : InterruptPin :=
  pick c [(0, .Unused), (1, .IntA), (2, .IntB), (3, .IntC), (4, .IntD)] (.Reserved c)

/-- BIST register: capable (7), start/running (6), completion code (3:0). -/
def BuiltInSelfTest.spec (c : U8) : BuiltInSelfTest :=
  { is_capable := flag c 7, is_running := flag c 6, completion_code := fld c 0 4 }

/-- Expansion ROM register: address (31:11), reserved (10:1), enable (0). -/
def ExpansionRom.spec (w : U32) : ExpansionRom :=
  { address := (fld w 11 21 : U32) <<< 11, reserved := fld w 1 10, is_enabled := flag w 0 }

/-- The two capability nibbles and the address parts of an I/O window of a PCI-to-PCI bridge:
the upper nibble of the 8-bit register is address bits 15:12, the 16-bit register is address bits
31:16. -/
def BridgeIoAddressRange.spec (base limit : U8) (baseUpper limitUpper : U16) :
    BridgeIoAddressRange :=
  if base = 0 ∧ limit = 0 then .NotImplemented
  else if (fld base 0 4 : U8) = 0 ∧ (fld limit 0 4 : U8) = 0 then
    .IoAddr16 ((fld base 4 4 : U16) <<< 12) ((fld limit 4 4 : U16) <<< 12)
  else if (fld base 0 4 : U8) = 1 ∧ (fld limit 0 4 : U8) = 1 then
    .IoAddr32 (cat baseUpper ((fld base 4 4 : U16) <<< 12))
      (cat limitUpper ((fld limit 4 4 : U16) <<< 12))
  else if (fld base 0 4 : U8) = (fld limit 0 4 : U8) then .Reserved base limit
  else .Malformed base limit

/-- The prefetchable memory window: bits 15:4 of the 16-bit register are address bits 31:20, the
32-bit register is address bits 63:32. -/
def BridgePrefetchableMemory.spec (base limit : U16) (baseUpper limitUpper : U32) :
    BridgePrefetchableMemory :=
  if base = 0 ∧ limit = 0 then .NotImplemented
  else if (fld base 0 4 : U8) = 0 ∧ (fld limit 0 4 : U8) = 0 then
    .MemAddr32 ((fld base 4 12 : U32) <<< 20) ((fld limit 4 12 : U32) <<< 20)
  else if (fld base 0 4 : U8) = 1 ∧ (fld limit 0 4 : U8) = 1 then
    .MemAddr64 (cat baseUpper ((fld base 4 12 : U32) <<< 20))
      (cat limitUpper ((fld limit 4 12 : U32) <<< 20))
  else if (fld base 0 4 : U8) = (fld limit 0 4 : U8) then .Reserved base limit
  else .Malformed base limit

/-- CardBus I/O window: capability in bits 1:0 of the base register, addresses 4-byte aligned. -/
def IoAccessAddressRange.spec (baseLower baseUpper limitLower limitUpper : U16) :
    IoAccessAddressRange :=
  let bl : U16 := (fld baseLower 2 14 : U16) <<< 2
  let ll : U16 := (fld limitLower 2 14 : U16) <<< 2
  pick (fld baseLower 0 2 : U8)
    [(0, .Addr16Bit bl ll), (1, .Addr32Bit (cat baseUpper bl) (cat limitUpper ll))]
    (.Unknown (fld baseLower 0 2) bl baseUpper ll limitUpper)

/-- Type 0 header (offsets from the start of configuration space). -/
def Normal.spec (d : Bytes) : Normal :=
  { base_addresses := BaseAddresses.new
      [rd32 d 0x10, rd32 d 0x14, rd32 d 0x18, rd32 d 0x1c, rd32 d 0x20, rd32 d 0x24],
    cardbus_cis_pointer := rd32 d 0x28,
    sub_vendor_id := rd16 d 0x2c,
    sub_device_id := rd16 d 0x2e,
    expansion_rom := ExpansionRom.spec (rd32 d 0x30),
    min_grant := byteAt d 0x3e,
    max_latency := byteAt d 0x3f }

/-- Type 1 header. -/
def Bridge.spec (d : Bytes) : Bridge :=
  { base_addresses := BaseAddresses.new [rd32 d 0x10, rd32 d 0x14],
    primary_bus_number := byteAt d 0x18,
    secondary_bus_number := byteAt d 0x19,
    subordinate_bus_number := byteAt d 0x1a,
    secondary_latency_timer := byteAt d 0x1b,
    io_address_range := BridgeIoAddressRange.spec (byteAt d 0x1c) (byteAt d 0x1d)
      (rd16 d 0x30) (rd16 d 0x32),
    secondary_status := Status.spec (rd16 d 0x1e),
    memory_base := rd16 d 0x20,
    memory_limit := rd16 d 0x22,
    prefetchable_memory := BridgePrefetchableMemory.spec (rd16 d 0x24) (rd16 d 0x26)
      (rd32 d 0x28) (rd32 d 0x2c),
    expansion_rom := ExpansionRom.spec (rd32 d 0x38),
    bridge_control := BridgeControl.spec (rd16 d 0x3e) }

/-- Type 2 header. -/
def Cardbus.spec (d : Bytes) : Cardbus :=
  { base_addresses := BaseAddresses.new [rd32 d 0x10],
    secondary_status := Status.spec (rd16 d 0x16),
    pci_bus_number := byteAt d 0x18,
    cardbus_bus_number := byteAt d 0x19,
    subordinate_bus_number := byteAt d 0x1a,
    cardbus_latency_timer := byteAt d 0x1b,
    memory_base_address_0 := rd32 d 0x1c,
    memory_limit_address_0 := rd32 d 0x20,
    memory_base_address_1 := rd32 d 0x24,
    memory_limit_address_1 := rd32 d 0x28,
    io_access_address_range_0 := IoAccessAddressRange.spec (rd16 d 0x2c) (rd16 d 0x2e)
      (rd16 d 0x30) (rd16 d 0x32),
    io_access_address_range_1 := IoAccessAddressRange.spec (rd16 d 0x34) (rd16 d 0x36)
      (rd16 d 0x38) (rd16 d 0x3a),
    bridge_control := CardbusBridgeControl.spec (rd16 d 0x3e),
    subsystem_vendor_id := none,
    subsystem_device_id := none,
    legacy_mode_base_address := none,
    reserved := none }

/-- Bits 6:0 of the Header Type register. -/
def headerTypeCode (d : Bytes) : U8 := fld (byteAt d 0x0e) 0 7

/-- The layout selected by the Header Type register. -/
def HeaderType.spec (d : Bytes) : HeaderType :=
  pick (headerTypeCode d)
    [(0, .Normal (Normal.spec d)), (1, .Bridge (Bridge.spec d)), (2, .Cardbus (Cardbus.spec d))]
    (.Reserved (headerTypeCode d))

/-- Where the capabilities pointer of each layout is (nowhere for a reserved layout). -/
def capPointerByte (d : Bytes) : U8 :=
  pick (headerTypeCode d)
    [(0, byteAt d 0x34), (1, byteAt d 0x34), (2, byteAt d 0x14)] 0

/-- The whole header. -/
def Header.spec (d : Bytes) : Header :=
  { vendor_id := rd16 d 0x00,
    device_id := rd16 d 0x02,
    command := Command.spec (rd16 d 0x04),
    status := Status.spec (rd16 d 0x06),
    revision_id := byteAt d 0x08,
    class_code := { interface := byteAt d 0x09, sub := byteAt d 0x0a, base := byteAt d 0x0b },
    cache_line_size := byteAt d 0x0c,
    latency_timer := byteAt d 0x0d,
    is_multi_function := flag (byteAt d 0x0e) 7,
    header_type := HeaderType.spec d,
    bist := BuiltInSelfTest.spec (byteAt d 0x0f),
    capabilities_pointer := (fld (capPointerByte d) 2 6 : U8) <<< 2,
    interrupt_line :=
      pick (headerTypeCode d) [(0, byteAt d 0x3c), (1, byteAt d 0x3c), (2, byteAt d 0x3c)] 0,
    interrupt_pin := InterruptPin.spec
      (pick (headerTypeCode d) [(0, byteAt d 0x3d), (1, byteAt d 0x3d), (2, byteAt d 0x3d)] 0) }

end Pcics.Header
