import Verif.Base
/-
Model of src/header.rs and src/header/{command,status,bar,bridge_control,cardbus_bridge_control}.rs
(`ClassCode::meaning` is in Verif.Model.ClassCode).

Simplification: the phantom `const T: char` parameter of `Status` is dropped.
-/

namespace Pcics.Header

/-- src/header/command.rs:9-22 -/
structure Command where
  io_space : Bool
  memory_space : Bool
  bus_master : Bool
  special_cycles : Bool
  memory_write_and_invalidate_enable : Bool
  vga_palette_snoop : Bool
  parity_error_response : Bool
  stepping : Bool
  serr_enable : Bool
  fast_back_to_back_enable : Bool
  interrupt_disable : Bool
  reserved : U8
  deriving DecidableEq, Repr

/-- src/header/command.rs:24-55 -/
def Command.ofU16 (w : U16) : Command := runBits w do
  let io_space ← bit
  let memory_space ← bit
  let bus_master ← bit
  let special_cycles ← bit
  let memory_write_and_invalidate_enable ← bit
  let vga_palette_snoop ← bit
  let parity_error_response ← bit
  let stepping ← bit
  let serr_enable ← bit
  let fast_back_to_back_enable ← bit
  let interrupt_disable ← bit
  let reserved ← bits 5
  return {
    io_space := io_space, memory_space := memory_space, bus_master := bus_master,
    special_cycles := special_cycles,
    memory_write_and_invalidate_enable := memory_write_and_invalidate_enable,
    vga_palette_snoop := vga_palette_snoop, parity_error_response := parity_error_response,
    stepping := stepping, serr_enable := serr_enable,
    fast_back_to_back_enable := fast_back_to_back_enable, interrupt_disable := interrupt_disable,
    reserved := reserved }

/-- src/header/status.rs:70-79 -/
inductive DevselTiming where
  | Fast
  | Medium
  | Slow
  | Undefined
  deriving DecidableEq, Repr

/-- src/header/status.rs:14-31 -/
structure Status where
  reserved : U8
  interrupt_status : Bool
  capabilities_list : Bool
  is_66mhz_capable : Bool
  user_definable_features : Bool
  fast_back_to_back_capable : Bool
  master_data_parity_error : Bool
  devsel_timing : DevselTiming
  signaled_target_abort : Bool
  received_target_abort : Bool
  received_master_abort : Bool
  system_error : Bool
  detected_parity_error : Bool
  deriving DecidableEq, Repr

/-- src/header/status.rs:80-90 -/
def DevselTiming.ofU8 {ε : Type} (b : U8) : Res ε DevselTiming :=
  match b.toNat with
  | 0b00 => .ok .Fast
  | 0b01 => .ok .Medium
  | 0b10 => .ok .Slow
  | 0b11 => .ok .Undefined
  | _ => .panic

/-- src/header/status.rs:33-66 -/
def Status.ofU16 {ε : Type} (w : U16) : Res ε Status := runBits w do
  let reserved ← bits 3
  let interrupt_status ← bit
  let capabilities_list ← bit
  let is_66mhz_capable ← bit
  let user_definable_features ← bit
  let fast_back_to_back_capable ← bit
  let master_data_parity_error ← bit
  let devsel_timing ← bits 2
  let signaled_target_abort ← bit
  let received_target_abort ← bit
  let received_master_abort ← bit
  let system_error ← bit
  let detected_parity_error ← bit
  return do
    let devsel_timing ← DevselTiming.ofU8 devsel_timing
    return {
      reserved := reserved, interrupt_status := interrupt_status,
      capabilities_list := capabilities_list, is_66mhz_capable := is_66mhz_capable,
      user_definable_features := user_definable_features,
      fast_back_to_back_capable := fast_back_to_back_capable,
      master_data_parity_error := master_data_parity_error, devsel_timing := devsel_timing,
      signaled_target_abort := signaled_target_abort,
      received_target_abort := received_target_abort,
      received_master_abort := received_master_abort, system_error := system_error,
      detected_parity_error := detected_parity_error }

/-- src/header/bridge_control.rs:12-44 -/
structure BridgeControl where
  parity_error_response_enable : Bool
  serr_enable : Bool
  isa_enable : Bool
  vga_enable : Bool
  vga_16_enable : Bool
  master_abort_mode : Bool
  secondary_bus_reset : Bool
  fast_back_to_back_enable : Bool
  primary_discard_timer : Bool
  secondary_discard_timer : Bool
  discard_timer_status : Bool
  discard_timer_serr_enable : Bool
  deriving DecidableEq, Repr

/-- src/header/bridge_control.rs:46-78 -/
def BridgeControl.ofU16 (w : U16) : BridgeControl := runBits w do
  let parity_error_response_enable ← bit
  let serr_enable ← bit
  let isa_enable ← bit
  let vga_enable ← bit
  let vga_16_enable ← bit
  let master_abort_mode ← bit
  let secondary_bus_reset ← bit
  let fast_back_to_back_enable ← bit
  let primary_discard_timer ← bit
  let secondary_discard_timer ← bit
  let discard_timer_status ← bit
  let discard_timer_serr_enable ← bit
  skip 4
  return {
    parity_error_response_enable := parity_error_response_enable, serr_enable := serr_enable,
    isa_enable := isa_enable, vga_enable := vga_enable, vga_16_enable := vga_16_enable,
    master_abort_mode := master_abort_mode, secondary_bus_reset := secondary_bus_reset,
    fast_back_to_back_enable := fast_back_to_back_enable,
    primary_discard_timer := primary_discard_timer,
    secondary_discard_timer := secondary_discard_timer,
    discard_timer_status := discard_timer_status,
    discard_timer_serr_enable := discard_timer_serr_enable }

/-- src/header/cardbus_bridge_control.rs:8-33 -/
structure CardbusBridgeControl where
  parity_error_response_enable : Bool
  serr_enable : Bool
  isa_enable : Bool
  vga_enable : Bool
  master_abort_mode : Bool
  cardbus_reset : Bool
  ireq_int_enable : Bool
  memory_0_prefetch_enable : Bool
  memory_1_prefetch_enable : Bool
  write_posting_enable : Bool
  deriving DecidableEq, Repr

/-- src/header/cardbus_bridge_control.rs:35-64 -/
def CardbusBridgeControl.ofU16 (w : U16) : CardbusBridgeControl := runBits w do
  let parity_error_response_enable ← bit
  let serr_enable ← bit
  let isa_enable ← bit
  let vga_enable ← bit
  skip 1
  let master_abort_mode ← bit
  let cardbus_reset ← bit
  let ireq_int_enable ← bit
  let memory_0_prefetch_enable ← bit
  let memory_1_prefetch_enable ← bit
  let write_posting_enable ← bit
  skip 5
  return {
    parity_error_response_enable := parity_error_response_enable, serr_enable := serr_enable,
    isa_enable := isa_enable, vga_enable := vga_enable, master_abort_mode := master_abort_mode,
    cardbus_reset := cardbus_reset, ireq_int_enable := ireq_int_enable,
    memory_0_prefetch_enable := memory_0_prefetch_enable,
    memory_1_prefetch_enable := memory_1_prefetch_enable,
    write_posting_enable := write_posting_enable }

/-- src/header/class_code.rs:5-13 -/
structure ClassCode where
  interface : U8
  sub : U8
  base : U8
  deriving DecidableEq, Repr

/-- src/header/bar.rs:11-14.  The const parameter `N` is `data.length`. -/
structure BaseAddresses where
  data : List U32
  region : Nat
  deriving DecidableEq, Repr

/-- src/header/bar.rs:139-169 -/
inductive BaseAddressType where
  | MemorySpace32 (prefetchable : Bool) (base_address : U32)
  | MemorySpaceBelow1M (prefetchable : Bool) (base_address : U32)
  | MemorySpace64 (prefetchable : Bool) (base_address : U64)
  | MemorySpaceReserved (prefetchable : Bool) (base_address : U32)
  | MemorySpace64Broken (prefetchable : Bool)
  | IoSpace (base_address : U32)
  deriving DecidableEq, Repr

/-- src/header/bar.rs:132-135 -/
structure BaseAddress where
  region : Nat
  base_address_type : BaseAddressType
  deriving DecidableEq, Repr

/-- src/header/bar.rs:16-19 -/
def BaseAddresses.new (data : List U32) : BaseAddresses := { data := data, region := 0 }

/-- src/header/bar.rs:20-23 -/
def BaseAddresses.orig (s : BaseAddresses) : List U32 := s.data

/-- src/header/bar.rs:29-37: the inner closure `next` of `Iterator::next`. -/
def BaseAddresses.fetch (s : BaseAddresses) : Option (Nat × U32) × BaseAddresses :=
  match s.data[s.region]? with
  | some dword => (some (s.region, dword), { s with region := s.region + 1 })
  | none => (none, s)

/-- src/header/bar.rs:43-82: decoding of one non-zero dword (the loop body after the zero test);
a 64-bit BAR fetches one more dword. -/
def BaseAddresses.item (region : Nat) (dword : U32) (s : BaseAddresses) :
    BaseAddress × BaseAddresses :=
  let is_io_space := dword &&& 0b1#32 != 0
  if is_io_space then
    ({ region := region, base_address_type := .IoSpace (dword &&& ~~~0b11#32) }, s)
  else
    let prefetchable := dword &&& 0b1000#32 != 0
    let base_address := dword &&& ~~~0b1111#32
    match (dword &&& 0b110#32).toNat with
    | 0b000 =>
      ({ region := region, base_address_type := .MemorySpace32 prefetchable base_address }, s)
    | 0b010 =>
      ({ region := region, base_address_type := .MemorySpaceBelow1M prefetchable base_address }, s)
    | 0b100 =>
      match s.fetch with
      | (some (_, dword), s') =>
        ({ region := region, base_address_type := .MemorySpace64 prefetchable
            ((dword.setWidth 64 <<< 32) ||| base_address.setWidth 64) }, s')
      | (none, s') =>
        ({ region := region, base_address_type := .MemorySpace64Broken prefetchable }, s')
    | _ =>
      ({ region := region,
         base_address_type := .MemorySpaceReserved prefetchable base_address }, s)

/-- src/header/bar.rs:26-85: `Iterator::next`.  The loop `continue`s on a zero dword. -/
def BaseAddresses.next (s : BaseAddresses) : Option BaseAddress × BaseAddresses :=
  match _h : s.data[s.region]? with
  | none => (none, s)
  | some dword =>
    let s' : BaseAddresses := { s with region := s.region + 1 }
    if dword == 0 then s'.next
    else
      let r := BaseAddresses.item s.region dword s'
      (some r.1, r.2)
termination_by s.data.length - s.region
decreasing_by
  have := (List.getElem?_eq_some_iff.mp _h).1
  omega

/-- Collecting an iterator: call `next` until `None`; `fuel` bounds the number of calls (the
theorems give a bound that always suffices). -/
def BaseAddresses.collect : Nat → BaseAddresses → List BaseAddress
  | 0, _ => []
  | fuel + 1, s =>
    match s.next with
    | (none, _) => []
    | (some b, s') => b :: BaseAddresses.collect fuel s'

/-- src/header/bar.rs:91-107: loop body of `FromIterator<BaseAddress> for [u32; N]`;
`none` is the index-out-of-bounds panic of `dwords[i + 1]`.  `N - 1` with `N = 0` is the
subtraction-overflow panic. -/
def BaseAddress.store (dwords : List U32) (ba : BaseAddress) : Option (List U32) :=
  if dwords.length = 0 then none
  else
    let i := min ba.region (dwords.length - 1)
    match ba.base_address_type with
    | .MemorySpace32 prefetchable base_address =>
      some (dwords.set i
        (base_address &&& ~~~0b1111#32 ||| (BitVec.ofNat 32 (b2n prefetchable) <<< 3)))
    | .MemorySpaceBelow1M prefetchable base_address =>
      some (dwords.set i
        (base_address &&& ~~~0b1111#32 ||| 0b010#32
          ||| (BitVec.ofNat 32 (b2n prefetchable) <<< 3)))
    | .MemorySpace64 prefetchable base_address =>
      let dwords := dwords.set i
        (base_address.setWidth 32 &&& ~~~0b1111#32 ||| 0b100#32
          ||| (BitVec.ofNat 32 (b2n prefetchable) <<< 3))
      if i + 1 < dwords.length then
        some (dwords.set (i + 1) ((base_address >>> 32).setWidth 32))
      else none
    | .IoSpace base_address => some (dwords.set i (base_address &&& ~~~0b11#32 ||| 0b01#32))
    | _ => some dwords

/-- src/header/bar.rs:87-112: `FromIterator<BaseAddress> for [u32; N]`, `none` = panic.
`FromIterator<&BaseAddress>` (bar.rs:114-118) clones the items and collects the same way. -/
def fromBaseAddresses (N : Nat) (items : List BaseAddress) : Option (List U32) :=
  items.foldlM BaseAddress.store (List.replicate N 0)

/-- src/header/bar.rs:120-124: `PartialEq` compares the iterated sequences. -/
def BaseAddresses.eq (a b : BaseAddresses) : Bool :=
  decide (BaseAddresses.collect (a.data.length + 1) a
    = BaseAddresses.collect (b.data.length + 1) b)

/-- src/header.rs:781-785 -/
structure ExpansionRom where
  address : U32
  reserved : U16
  is_enabled : Bool
  deriving DecidableEq, Repr

/-- src/header.rs:419-435 -/
structure Normal where
  base_addresses : BaseAddresses
  cardbus_cis_pointer : U32
  sub_vendor_id : U16
  sub_device_id : U16
  expansion_rom : ExpansionRom
  min_grant : U8
  max_latency : U8
  deriving DecidableEq, Repr

/-- src/header.rs:466-489 -/
inductive BridgeIoAddressRange where
  | NotImplemented
  | IoAddr16 (base : U16) (limit : U16)
  | IoAddr32 (base : U32) (limit : U32)
  | Malformed (base : U8) (limit : U8)
  | Reserved (base : U8) (limit : U8)
  deriving DecidableEq, Repr

/-- src/header.rs:522-546 -/
inductive BridgePrefetchableMemory where
  | NotImplemented
  | MemAddr32 (base : U32) (limit : U32)
  | MemAddr64 (base : U64) (limit : U64)
  | Malformed (base : U16) (limit : U16)
  | Reserved (base : U16) (limit : U16)
  deriving DecidableEq, Repr

/-- src/header.rs:439-461 -/
structure Bridge where
  base_addresses : BaseAddresses
  primary_bus_number : U8
  secondary_bus_number : U8
  subordinate_bus_number : U8
  secondary_latency_timer : U8
  io_address_range : BridgeIoAddressRange
  secondary_status : Status
  memory_base : U16
  memory_limit : U16
  prefetchable_memory : BridgePrefetchableMemory
  expansion_rom : ExpansionRom
  bridge_control : BridgeControl
  deriving DecidableEq, Repr

/-- src/header.rs:705-721 -/
inductive IoAccessAddressRange where
  | Addr16Bit (base : U16) (limit : U16)
  | Addr32Bit (base : U32) (limit : U32)
  | Unknown (io_address_capability : U8) (base_lower : U16) (base_upper : U16)
      (limit_lower : U16) (limit_upper : U16)
  deriving DecidableEq, Repr

/-- src/header.rs:577-608 -/
structure Cardbus where
  base_addresses : BaseAddresses
  secondary_status : Status
  pci_bus_number : U8
  cardbus_bus_number : U8
  subordinate_bus_number : U8
  cardbus_latency_timer : U8
  memory_base_address_0 : U32
  memory_limit_address_0 : U32
  memory_base_address_1 : U32
  memory_limit_address_1 : U32
  io_access_address_range_0 : IoAccessAddressRange
  io_access_address_range_1 : IoAccessAddressRange
  bridge_control : CardbusBridgeControl
  subsystem_vendor_id : Option U16
  subsystem_device_id : Option U16
  legacy_mode_base_address : Option U32
  reserved : Option Bytes
  deriving DecidableEq, Repr

/-- src/header.rs:384-389 -/
inductive HeaderType where
  | Normal (v : Normal)
  | Bridge (v : Bridge)
  | Cardbus (v : Cardbus)
  | Reserved (v : U8)
  deriving DecidableEq, Repr

/-- src/header.rs:630-638 -/
structure BuiltInSelfTest where
  is_capable : Bool
  is_running : Bool
  completion_code : U8
  deriving DecidableEq, Repr

/-- src/header.rs:664-671 -/
inductive InterruptPin where
  | Unused
  | IntA
  | IntB
  | IntC
  | IntD
  | Reserved (v : U8)
  deriving DecidableEq, Repr

/-- src/header.rs:146-176 -/
structure Header where
  vendor_id : U16
  device_id : U16
  command : Command
  status : Status
  revision_id : U8
  class_code : ClassCode
  cache_line_size : U8
  latency_timer : U8
  is_multi_function : Bool
  header_type : HeaderType
  bist : BuiltInSelfTest
  capabilities_pointer : U8
  interrupt_line : U8
  interrupt_pin : InterruptPin
  deriving DecidableEq, Repr

/-- src/header/class_code.rs:15-24 -/
def ClassCode.ofBytes {ε : Type} (bytes : Bytes) : Res ε ClassCode :=
  BP.arr (do
    let interface ← le8
    let sub ← le8
    let base ← le8
    return { interface := interface, sub := sub, base := base }) bytes

/-- src/header.rs:787-801 -/
def ExpansionRom.ofU32 (w : U32) : ExpansionRom := runBits w do
  let is_enabled ← bit
  let reserved ← bits 10
  let address ← bits 21
  return { is_enabled := is_enabled, reserved := reserved, address := address <<< 11 }

/-- src/header.rs:803-807 -/
def ExpansionRom.toU32 (rom : ExpansionRom) : U32 :=
  rom.address ||| (rom.reserved.setWidth 32 <<< 1) ||| BitVec.ofNat 32 (b2n rom.is_enabled)

/-- src/header.rs:809-813 -/
def ExpansionRom.toU64 (rom : ExpansionRom) : U64 := rom.toU32.setWidth 64

/-- src/header.rs:491-515 -/
def BridgeIoAddressRange.new (io_base io_limit : U8) (io_base_upper_16 io_limit_upper_16 : U16) :
    BridgeIoAddressRange :=
  let base_capability := io_base &&& 0xf#8
  let base_address := io_base &&& ~~~0xf#8
  let limit_capability := io_limit &&& 0xf#8
  let limit_address := io_limit &&& ~~~0xf#8
  if base_capability = 0x00 ∧ base_address = 0x00 ∧ limit_capability = 0x00
      ∧ limit_address = 0x00 then
    .NotImplemented
  else if base_capability = 0x00 ∧ limit_capability = 0x00 then
    .IoAddr16 (base_address.setWidth 16 <<< 8) (limit_address.setWidth 16 <<< 8)
  else if base_capability = 0x01 ∧ limit_capability = 0x01 then
    .IoAddr32
      ((base_address.setWidth 32 <<< 8) ||| (io_base_upper_16.setWidth 32 <<< 16))
      ((limit_address.setWidth 32 <<< 8) ||| (io_limit_upper_16.setWidth 32 <<< 16))
  else if base_capability ≠ limit_capability then .Malformed io_base io_limit
  else .Reserved io_base io_limit

/-- src/header.rs:548-572 -/
def BridgePrefetchableMemory.new (base limit : U16) (base_upper_32 limit_upper_32 : U32) :
    BridgePrefetchableMemory :=
  let base_capability := base &&& 0xf#16
  let base_address := base &&& ~~~0xf#16
  let limit_capability := limit &&& 0xf#16
  let limit_address := limit &&& ~~~0xf#16
  if base_capability = 0x00 ∧ base_address = 0x00 ∧ limit_capability = 0x00
      ∧ limit_address = 0x00 then
    .NotImplemented
  else if base_capability = 0x00 ∧ limit_capability = 0x00 then
    .MemAddr32 (base_address.setWidth 32 <<< 16) (limit_address.setWidth 32 <<< 16)
  else if base_capability = 0x01 ∧ limit_capability = 0x01 then
    .MemAddr64
      ((base_address.setWidth 64 <<< 16) ||| (base_upper_32.setWidth 64 <<< 32))
      ((limit_address.setWidth 64 <<< 16) ||| (limit_upper_32.setWidth 64 <<< 32))
  else if base_capability ≠ limit_capability then .Malformed base limit
  else .Reserved base limit

/-- src/header.rs:639-647 -/
def BuiltInSelfTest.ofU8 (data : U8) : BuiltInSelfTest :=
  { is_capable := data &&& 0b10000000#8 != 0,
    is_running := data &&& 0b01000000#8 != 0,
    completion_code := data &&& 0b1111#8 }

/-- src/header.rs:648-659 -/
def BuiltInSelfTest.toU8 (bist : BuiltInSelfTest) : U8 :=
  let result := bist.completion_code &&& 0b1111#8
  let result := if bist.is_capable then result ||| 0b10000000#8 else result
  if bist.is_running then result ||| 0b01000000#8 else result

/-- src/header.rs:676-687 -/
def InterruptPin.ofU8 (b : U8) : InterruptPin :=
  match b.toNat with
  | 0x00 => .Unused
  | 0x01 => .IntA
  | 0x02 => .IntB
  | 0x03 => .IntC
  | 0x04 => .IntD
  | _ => .Reserved b

/-- src/header.rs:688-699 -/
def InterruptPin.toU8 : InterruptPin → U8
  | .Unused => 0x00
  | .IntA => 0x01
  | .IntB => 0x02
  | .IntC => 0x03
  | .IntD => 0x04
  | .Reserved v => v

/-- src/header.rs:729-758: `From<[[u16; 2]; 2]>` (and `From<[u16; 4]>`, same argument order). -/
def IoAccessAddressRange.ofU16s (base_lower base_upper limit_lower limit_upper : U16) :
    IoAccessAddressRange :=
  let io_address_capability : U8 := (base_lower &&& 0b11#16).setWidth 8
  let base_lower := base_lower &&& ~~~0b11#16
  let limit_lower := limit_lower &&& ~~~0b11#16
  match io_address_capability.toNat with
  | 0x00 => .Addr16Bit base_lower limit_lower
  | 0x01 => .Addr32Bit ((base_upper.setWidth 32 <<< 16) ||| base_lower.setWidth 32)
      ((limit_upper.setWidth 32 <<< 16) ||| limit_lower.setWidth 32)
  | _ => .Unknown io_address_capability base_lower base_upper limit_lower limit_upper

/-- src/header.rs:759-777: `From<IoAccessAddressRange> for [[u16; 2]; 2]`, flattened to
`(base lower, base upper, limit lower, limit upper)`; `none` is the `unreachable!()` panic. -/
def IoAccessAddressRange.toU16s : IoAccessAddressRange → Option (U16 × U16 × U16 × U16)
  | .Addr16Bit base limit => some (base &&& ~~~0b11#16, 0, limit, 0)
  | .Addr32Bit base limit =>
    let base_upper : U16 := (base.setWidth 16) &&& ~~~0b11#16
    let base_lower : U16 := (base >>> 16).setWidth 16
    let limit_upper : U16 := limit.setWidth 16
    let limit_lower : U16 := (limit >>> 16).setWidth 16
    some (base_upper, base_lower, limit_upper, limit_lower)
  | .Unknown .. => none

/-- src/header.rs:610-623: `try_set_optional_registers`; the second component is the new value
of `self` (unchanged on error). -/
def Cardbus.trySetOptionalRegisters (self : Cardbus) (slice : Bytes) : Res Unit Cardbus := do
  let (subsystem_vendor_id, subsystem_device_id, legacy_mode_base_address, reserved) ←
    BP.head (do
      let subsystem_vendor_id ← le16
      let subsystem_device_id ← le16
      let legacy_mode_base_address ← le32
      let reserved ← bytesN (0x80 - 0x48)
      return (subsystem_vendor_id, subsystem_device_id, legacy_mode_base_address, reserved))
      () slice
  return { self with
    subsystem_vendor_id := some subsystem_vendor_id,
    subsystem_device_id := some subsystem_device_id,
    legacy_mode_base_address := some legacy_mode_base_address,
    reserved := some reserved }

/-- src/header.rs:391-397 -/
def HeaderType.expansion_rom : HeaderType → Option ExpansionRom
  | .Normal n => some n.expansion_rom
  | .Bridge b => some b.expansion_rom
  | _ => none

/-- src/header.rs:400-415 -/
def HeaderType.toU8 : HeaderType → U8
  | .Normal _ => 0
  | .Bridge _ => 1
  | .Cardbus _ => 2
  | .Reserved v => v

/-- src/header.rs:204-233: arm `0x00` of the header type match. -/
def parseNormal {ε : Type} (tail : Bytes) : Res ε (U8 × U8 × U8 × HeaderType) :=
  BP.arr (do
    let base_addresses ← le32s 6
    let cardbus_cis_pointer ← le32
    let sub_vendor_id ← le16
    let sub_device_id ← le16
    let expansion_rom ← le32
    let capabilities_pointer ← le8
    let _reserved ← bytesN 7
    let interrupt_line ← le8
    let interrupt_pin ← le8
    let min_grant ← le8
    let max_latency ← le8
    return (capabilities_pointer, interrupt_line, interrupt_pin,
      HeaderType.Normal {
        base_addresses := BaseAddresses.new base_addresses,
        cardbus_cis_pointer := cardbus_cis_pointer,
        sub_vendor_id := sub_vendor_id,
        sub_device_id := sub_device_id,
        expansion_rom := ExpansionRom.ofU32 expansion_rom,
        min_grant := min_grant,
        max_latency := max_latency })) tail

/-- src/header.rs:234-289: arm `0x01` of the header type match. -/
def parseBridge {ε : Type} (tail : Bytes) : Res ε (U8 × U8 × U8 × HeaderType) :=
  Res.join <| BP.arr (do
    let base_addresses ← le32s 2
    let primary_bus_number ← le8
    let secondary_bus_number ← le8
    let subordinate_bus_number ← le8
    let secondary_latency_timer ← le8
    let io_base ← le8
    let io_limit ← le8
    let secondary_status ← le16
    let memory_base ← le16
    let memory_limit ← le16
    let base ← le16
    let limit ← le16
    let base_upper_32 ← le32
    let limit_upper_32 ← le32
    let io_base_upper ← le16
    let io_limit_upper ← le16
    let capabilities_pointer ← le8
    let _reserved ← bytesN 3
    let expansion_rom ← le32
    let interrupt_line ← le8
    let interrupt_pin ← le8
    let bridge_control ← le16
    return do
      let secondary_status ← Status.ofU16 secondary_status
      return (capabilities_pointer, interrupt_line, interrupt_pin,
        HeaderType.Bridge {
          base_addresses := BaseAddresses.new base_addresses,
          primary_bus_number := primary_bus_number,
          secondary_bus_number := secondary_bus_number,
          subordinate_bus_number := subordinate_bus_number,
          secondary_latency_timer := secondary_latency_timer,
          io_address_range :=
            BridgeIoAddressRange.new io_base io_limit io_base_upper io_limit_upper,
          secondary_status := secondary_status,
          memory_base := memory_base,
          memory_limit := memory_limit,
          prefetchable_memory :=
            BridgePrefetchableMemory.new base limit base_upper_32 limit_upper_32,
          expansion_rom := ExpansionRom.ofU32 expansion_rom,
          bridge_control := BridgeControl.ofU16 bridge_control })) tail

/-- src/header.rs:290-343: arm `0x02` of the header type match. -/
def parseCardbus {ε : Type} (tail : Bytes) : Res ε (U8 × U8 × U8 × HeaderType) :=
  Res.join <| BP.arr (do
    let base_addresses ← le32s 1
    let capabilities_pointer ← le8
    let _reserved ← le8
    let secondary_status ← le16
    let pci_bus_number ← le8
    let cardbus_bus_number ← le8
    let subordinate_bus_number ← le8
    let cardbus_latency_timer ← le8
    let memory_base_address_0 ← le32
    let memory_limit_address_0 ← le32
    let memory_base_address_1 ← le32
    let memory_limit_address_1 ← le32
    let io_0_0 ← le16
    let io_0_1 ← le16
    let io_0_2 ← le16
    let io_0_3 ← le16
    let io_1_0 ← le16
    let io_1_1 ← le16
    let io_1_2 ← le16
    let io_1_3 ← le16
    let interrupt_line ← le8
    let interrupt_pin ← le8
    let bridge_control ← le16
    return do
      let secondary_status ← Status.ofU16 secondary_status
      return (capabilities_pointer, interrupt_line, interrupt_pin,
        HeaderType.Cardbus {
          base_addresses := BaseAddresses.new base_addresses,
          secondary_status := secondary_status,
          pci_bus_number := pci_bus_number,
          cardbus_bus_number := cardbus_bus_number,
          subordinate_bus_number := subordinate_bus_number,
          cardbus_latency_timer := cardbus_latency_timer,
          memory_base_address_0 := memory_base_address_0,
          memory_limit_address_0 := memory_limit_address_0,
          memory_base_address_1 := memory_base_address_1,
          memory_limit_address_1 := memory_limit_address_1,
          io_access_address_range_0 := IoAccessAddressRange.ofU16s io_0_0 io_0_1 io_0_2 io_0_3,
          io_access_address_range_1 := IoAccessAddressRange.ofU16s io_1_0 io_1_1 io_1_2 io_1_3,
          bridge_control := CardbusBridgeControl.ofU16 bridge_control,
          subsystem_vendor_id := none,
          subsystem_device_id := none,
          legacy_mode_base_address := none,
          reserved := none })) tail

/-- src/header.rs:202-345: dispatch on the header type. -/
def parseLayout {ε : Type} (htype : U8) (tail : Bytes) : Res ε (U8 × U8 × U8 × HeaderType) :=
  match (htype &&& ~~~0x80#8).toNat with
  | 0x00 => parseNormal tail
  | 0x01 => parseBridge tail
  | 0x02 => parseCardbus tail
  | _ => .ok (0, 0, 0, .Reserved (htype &&& ~~~0x80#8))

/-- src/header.rs:185-363: `From<[u8; 64]> for Header`. -/
def Header.ofArray {ε : Type} (bytes : Bytes) : Res ε Header :=
  Res.join <| BP.arr (do
    let vendor_id ← le16
    let device_id ← le16
    let command ← le16
    let status ← le16
    let revision_id ← le8
    let class_code ← bytesN 3
    let cache_line_size ← le8
    let latency_timer ← le8
    let htype ← le8
    let bist ← le8
    let tail ← bytesN 48
    return do
      let (capabilities_pointer, interrupt_line, interrupt_pin, header_type) ←
        parseLayout htype tail
      let status ← Status.ofU16 status
      let class_code ← ClassCode.ofBytes class_code
      return {
        vendor_id := vendor_id,
        device_id := device_id,
        command := Command.ofU16 command,
        status := status,
        revision_id := revision_id,
        class_code := class_code,
        cache_line_size := cache_line_size,
        latency_timer := latency_timer,
        is_multi_function := htype &&& 0x80#8 != 0,
        header_type := header_type,
        bist := BuiltInSelfTest.ofU8 bist,
        capabilities_pointer := capabilities_pointer &&& ~~~0b11#8,
        interrupt_line := interrupt_line,
        interrupt_pin := InterruptPin.ofU8 interrupt_pin }) bytes

/-- src/header.rs:366-374: `TryFrom<&[u8]> for Header` (`Seq<[u8; 64], _>`). -/
def Header.ofBytes (slice : Bytes) : Res Unit Header := do
  let head ← BP.head (bytesN 64) () slice
  Header.ofArray head

end Pcics.Header
