import Verif.Model.Common
/- Model of src/extended_capabilities/virtual_channel.rs -/

namespace Pcics.VirtualChannel

/-- src/extended_capabilities/virtual_channel.rs:209-214 -/
inductive ReferenceClock where
  | Rc100ns
  | Reserved (v : U8)
  deriving DecidableEq, Repr

/-- src/extended_capabilities/virtual_channel.rs:225-225 -/
structure PortArbitrationTableEntrySize where
  val : U8
  deriving DecidableEq, Repr

/-- src/extended_capabilities/virtual_channel.rs:172-184 -/
structure PortVcCapability1 where
  extended_vc_count : U8
  low_priority_extended_vc_count : U8
  reference_clock : ReferenceClock
  port_arbitration_table_entry_size : PortArbitrationTableEntrySize
  deriving DecidableEq, Repr

/-- src/extended_capabilities/virtual_channel.rs:587-598 -/
structure VcArbitrationCapability where
  hardware_fixed_arbitration : Bool
  wrr_32_phases : Bool
  wrr_64_phases : Bool
  wrr_128_phases : Bool
  reserved : U8
  deriving DecidableEq, Repr

/-- src/extended_capabilities/virtual_channel.rs:553-559 -/
structure PortVcCapability2 where
  vc_arbitration_capability : VcArbitrationCapability
  vc_arbitration_table_offset : U8
  deriving DecidableEq, Repr

/-- src/extended_capabilities/virtual_channel.rs:683-694 -/
inductive VcArbitrationSelect where
  | HardwareFixedArbitration
  | Wrr32phases
  | Wrr64phases
  | Wrr128phases
  | Reserved (v : U8)
  deriving DecidableEq, Repr

/-- src/extended_capabilities/virtual_channel.rs:662-667 -/
structure PortVcControl where
  load_vc_arbitration_table : Bool
  vc_arbitration_select : VcArbitrationSelect
  deriving DecidableEq, Repr

/-- src/extended_capabilities/virtual_channel.rs:722-725 -/
structure PortVcStatus where
  vc_arbitration_table_status : Bool
  deriving DecidableEq, Repr

/-- src/extended_capabilities/virtual_channel.rs:97-107 -/
structure VirtualChannel where
  data : Bytes
  port_vc_capability_1 : PortVcCapability1
  port_vc_capability_2 : PortVcCapability2
  port_vc_control : PortVcControl
  port_vc_status : PortVcStatus
  deriving DecidableEq, Repr

/-- src/extended_capabilities/virtual_channel.rs:215-222 -/
def ReferenceClock.ofU8 (b : U8) : ReferenceClock :=
  match b.toNat with
  | 0b000 => .Rc100ns
  | _ => .Reserved b

/-- src/extended_capabilities/virtual_channel.rs:231-235 -/
def PortArbitrationTableEntrySize.ofU8 (b : U8) : PortArbitrationTableEntrySize := ⟨b⟩

/-- src/extended_capabilities/virtual_channel.rs:226-230. The shift overflows for values above 63,
which `PortVcCapability1::from` (a 2-bit field) never makes. -/
def PortArbitrationTableEntrySize.bits (s : PortArbitrationTableEntrySize) : Nat := 1 <<< s.val.toNat

/-- src/extended_capabilities/virtual_channel.rs:186-204 -/
def PortVcCapability1.ofU32 (w : U32) : PortVcCapability1 := runBits w do
  let extended_vc_count ← bits 3
  skip 1
  let low_priority_extended_vc_count ← bits 3
  skip 1
  let reference_clock ← bits 2
  let port_arbitration_table_entry_size ← bits 2
  skip 20
  return {
    extended_vc_count := extended_vc_count,
    low_priority_extended_vc_count := low_priority_extended_vc_count,
    reference_clock := ReferenceClock.ofU8 reference_clock,
    port_arbitration_table_entry_size := PortArbitrationTableEntrySize.ofU8 port_arbitration_table_entry_size }

/-- src/extended_capabilities/virtual_channel.rs:239-243 -/
structure ExtendedVirtualChannels where
  data : Bytes
  count : U8
  offset : Nat
  deriving DecidableEq, Repr

/-- src/extended_capabilities/virtual_channel.rs:283-286 -/
structure ExtendedVirtualChannelError where
  number : U8
  offset : Nat
  deriving DecidableEq, Repr

/-- src/extended_capabilities/virtual_channel.rs:370-385 -/
structure PortArbitrationCapability where
  hardware_fixed_arbitration : Bool
  wrr_32_phases : Bool
  wrr_64_phases : Bool
  wrr_128_phases : Bool
  time_based_wrr_128_phases : Bool
  wrr_256_phases : Bool
  reserved : U8
  deriving DecidableEq, Repr

/-- src/extended_capabilities/virtual_channel.rs:318-331 -/
structure VcResourceCapability where
  port_arbitration_capability : PortArbitrationCapability
  advanced_packet_switching : Bool
  reject_snoop_transactions : Bool
  maximum_time_slots : U8
  port_arbitration_table_offset : U8
  deriving DecidableEq, Repr

/-- src/extended_capabilities/virtual_channel.rs:474-489 -/
inductive PortArbitrationSelect where
  | HardwareFixedArbitration
  | Wrr32phases
  | Wrr64phases
  | Wrr128phases
  | TimeBasedWrr128phases
  | Wrr256phases
  | Reserved (v : U8)
  deriving DecidableEq, Repr

/-- src/extended_capabilities/virtual_channel.rs:436-447 -/
structure VcResourceControl where
  tc_or_vc_map : U8
  load_port_arbitration_table : Bool
  port_arbitration_select : PortArbitrationSelect
  vc_id : U8
  vc_enable : Bool
  deriving DecidableEq, Repr

/-- src/extended_capabilities/virtual_channel.rs:532-537 -/
structure VcResourceStatus where
  port_arbitration_table_status : Bool
  vc_negotiation_pending : Bool
  deriving DecidableEq, Repr

/-- src/extended_capabilities/virtual_channel.rs:290-297 -/
structure ExtendedVirtualChannel where
  vc_resource_capability : VcResourceCapability
  vc_resource_control : VcResourceControl
  vc_resource_status : VcResourceStatus
  deriving DecidableEq, Repr

/-- src/extended_capabilities/virtual_channel.rs:333-366 -/
def VcResourceCapability.ofU32 (w : U32) : VcResourceCapability := runBits w do
  let hardware_fixed_arbitration ← bit
  let wrr_32_phases ← bit
  let wrr_64_phases ← bit
  let wrr_128_phases ← bit
  let time_based_wrr_128_phases ← bit
  let wrr_256_phases ← bit
  let reserved ← bits 2
  skip 6
  let advanced_packet_switching ← bit
  let reject_snoop_transactions ← bit
  let maximum_time_slots ← bits 7
  skip 1
  let port_arbitration_table_offset ← bits 8
  return {
    port_arbitration_capability := {
      hardware_fixed_arbitration := hardware_fixed_arbitration, wrr_32_phases := wrr_32_phases,
      wrr_64_phases := wrr_64_phases, wrr_128_phases := wrr_128_phases,
      time_based_wrr_128_phases := time_based_wrr_128_phases, wrr_256_phases := wrr_256_phases,
      reserved := reserved },
    advanced_packet_switching := advanced_packet_switching,
    reject_snoop_transactions := reject_snoop_transactions,
    maximum_time_slots := maximum_time_slots,
    port_arbitration_table_offset := port_arbitration_table_offset }

/-- src/extended_capabilities/virtual_channel.rs:388-393 -/
structure PortArbitrationTable where
  data : Bytes
  entry_size_bits : Nat
  shift : Nat
  byte : U8
  deriving DecidableEq, Repr

/-- src/extended_capabilities/virtual_channel.rs:432-432 -/
structure PortArbitrationTableEntry where
  val : U8
  deriving DecidableEq, Repr

/-- src/extended_capabilities/virtual_channel.rs:504-516 -/
def PortArbitrationSelect.ofU8 (b : U8) : PortArbitrationSelect :=
  match b.toNat with
  | 0b000 => .HardwareFixedArbitration
  | 0b001 => .Wrr32phases
  | 0b010 => .Wrr64phases
  | 0b011 => .Wrr128phases
  | 0b100 => .TimeBasedWrr128phases
  | 0b101 => .Wrr256phases
  | _ => .Reserved b

/-- src/extended_capabilities/virtual_channel.rs:449-469 -/
def VcResourceControl.ofU32 (w : U32) : VcResourceControl := runBits w do
  let tc_or_vc_map ← bits 8
  skip 8
  let load_port_arbitration_table ← bit
  let port_arbitration_select ← bits 3
  skip 4
  let vc_id ← bits 3
  skip 4
  let vc_enable ← bit
  return {
    tc_or_vc_map := tc_or_vc_map, load_port_arbitration_table := load_port_arbitration_table,
    port_arbitration_select := PortArbitrationSelect.ofU8 port_arbitration_select,
    vc_id := vc_id, vc_enable := vc_enable }

/-- src/extended_capabilities/virtual_channel.rs:517-529 -/
def PortArbitrationSelect.toU8 : PortArbitrationSelect → U8
  | .HardwareFixedArbitration => 0
  | .Wrr32phases => 1
  | .Wrr64phases => 2
  | .Wrr128phases => 3
  | .TimeBasedWrr128phases => 4
  | .Wrr256phases => 5
  | .Reserved n => n

/-- src/extended_capabilities/virtual_channel.rs:539-548 -/
def VcResourceStatus.ofU16 (w : U16) : VcResourceStatus := runBits w do
  let port_arbitration_table_status ← bit
  let vc_negotiation_pending ← bit
  skip 14
  return {
    port_arbitration_table_status := port_arbitration_table_status,
    vc_negotiation_pending := vc_negotiation_pending }

/-- src/extended_capabilities/virtual_channel.rs:561-583 -/
def PortVcCapability2.ofU32 (w : U32) : PortVcCapability2 := runBits w do
  let hardware_fixed_arbitration ← bit
  let wrr_32_phases ← bit
  let wrr_64_phases ← bit
  let wrr_128_phases ← bit
  let reserved ← bits 4
  skip 16
  let vc_arbitration_table_offset ← bits 8
  return {
    vc_arbitration_capability := {
      hardware_fixed_arbitration := hardware_fixed_arbitration, wrr_32_phases := wrr_32_phases,
      wrr_64_phases := wrr_64_phases, wrr_128_phases := wrr_128_phases, reserved := reserved },
    vc_arbitration_table_offset := vc_arbitration_table_offset }

/-- src/extended_capabilities/virtual_channel.rs:638-642 -/
structure VcArbitrationTableEntry where
  vc_id : U8
  deriving DecidableEq, Repr

/-- src/extended_capabilities/virtual_channel.rs:603-606 -/
structure VcArbitrationTable where
  data : Bytes
  vate : Option VcArbitrationTableEntry
  deriving DecidableEq, Repr

/-- src/extended_capabilities/virtual_channel.rs:645-645 -/
structure VatEntryPair where
  curr : VcArbitrationTableEntry
  next : VcArbitrationTableEntry
  deriving DecidableEq, Repr

/-- src/extended_capabilities/virtual_channel.rs:707-717 -/
def VcArbitrationSelect.ofU8 (b : U8) : VcArbitrationSelect :=
  match b.toNat with
  | 0b000 => .HardwareFixedArbitration
  | 0b001 => .Wrr32phases
  | 0b010 => .Wrr64phases
  | 0b011 => .Wrr128phases
  | _ => .Reserved b

/-- src/extended_capabilities/virtual_channel.rs:669-678 -/
def PortVcControl.ofU16 (w : U16) : PortVcControl := runBits w do
  let load_vc_arbitration_table ← bit
  let vc_arbitration_select ← bits 3
  skip 12
  return {
    load_vc_arbitration_table := load_vc_arbitration_table,
    vc_arbitration_select := VcArbitrationSelect.ofU8 vc_arbitration_select }

/-- src/extended_capabilities/virtual_channel.rs:727-734 -/
def PortVcStatus.ofU16 (w : U16) : PortVcStatus := runBits w do
  let vc_arbitration_table_status ← bit
  skip 15
  return { vc_arbitration_table_status := vc_arbitration_table_status }

/-- src/extended_capabilities/virtual_channel.rs:647-659 -/
def VatEntryPair.ofU8 (byte : U8) : VatEntryPair :=
  { curr := ⟨byte &&& 0b111⟩, next := ⟨(byte >>> 4) &&& 0b111⟩ }

/-- src/extended_capabilities/virtual_channel.rs:607-614 -/
def VcArbitrationTable.new (data : Bytes) : VcArbitrationTable := { data := data, vate := none }

/-- src/extended_capabilities/virtual_channel.rs:615-627 -/
def VcArbitrationTable.next (t : VcArbitrationTable) :
    Option (VcArbitrationTableEntry × VcArbitrationTable) :=
  match t.vate with
  | some vate => some (vate, { t with vate := none })
  | none =>
    match t.data with
    | [] => none
    | byte :: data =>
      let pair := VatEntryPair.ofU8 byte
      some (pair.curr, { data := data, vate := some pair.next })

/-- src/extended_capabilities/virtual_channel.rs:394-403 -/
def PortArbitrationTable.new (data : Bytes) (entry_size_bits : Nat) : PortArbitrationTable :=
  { data := data, entry_size_bits := entry_size_bits, shift := 0, byte := 0 }

/-- src/extended_capabilities/virtual_channel.rs:404-421. For entry sizes above 8 the shift of
a u8 overflows: `nextChecked` in Model/Accessors.lean. -/
def PortArbitrationTable.next (t : PortArbitrationTable) :
    Option (PortArbitrationTableEntry × PortArbitrationTable) :=
  if t.entry_size_bits = 8 then
    match t.data with
    | [] => none
    | v :: data => some (⟨v⟩, { t with data := data })
  else do
    let t ←
      if t.shift = 0 then
        match t.data with
        | [] => none
        | byte :: data => some { t with data := data, byte := byte }
      else some t
    let init_mask : U8 := ~~~(0xff#8 <<< t.entry_size_bits)
    let mask := init_mask <<< t.shift
    let result := (t.byte &&& mask) >>> t.shift
    some (⟨result⟩, { t with shift := (t.shift + t.entry_size_bits) % 8 })

/-- src/extended_capabilities/virtual_channel.rs:302-313 and the conversion of a 12-byte slice at
267-273 -/
def ExtendedVirtualChannel.ofBytes (e : ExtendedVirtualChannelError) (slice : Bytes) :
    Res ExtendedVirtualChannelError ExtendedVirtualChannel := do
  let (vc_resource_capability, vc_resource_control, vc_resource_status) ← BP.head (do
    let vc_resource_capability ← le32
    let vc_resource_control ← le32
    let _ ← le16
    let vc_resource_status ← le16
    return (vc_resource_capability, vc_resource_control, vc_resource_status)) e slice
  return {
    vc_resource_capability := VcResourceCapability.ofU32 vc_resource_capability
    vc_resource_control := VcResourceControl.ofU32 vc_resource_control
    vc_resource_status := VcResourceStatus.ofU16 vc_resource_status }

/-- src/extended_capabilities/virtual_channel.rs:244-256; `count + 1` overflows for 255 -/
def ExtendedVirtualChannels.new {ε : Type} (data : Bytes) (count : U8) :
    Res ε ExtendedVirtualChannels :=
  if count = 255 then .panic else .ok { data := data, count := count + 1, offset := 0 }

/-- src/extended_capabilities/virtual_channel.rs:257-279 -/
def ExtendedVirtualChannels.next (s : ExtendedVirtualChannels) :
    Option (Res ExtendedVirtualChannelError ExtendedVirtualChannel × ExtendedVirtualChannels) :=
  if s.count = 0 then none
  else do
    let slice ← getRange s.data s.offset (s.offset + 12)
    let result := ExtendedVirtualChannel.ofBytes ⟨s.count, s.offset⟩ slice
    some (result, { s with count := s.count - 1, offset := s.offset + 12 })

/-- src/extended_capabilities/virtual_channel.rs:695-706 -/
def VcArbitrationSelect.vc_arbitration_table_length : VcArbitrationSelect → Nat
  | .HardwareFixedArbitration => 0
  | .Wrr32phases => 32
  | .Wrr64phases => 64
  | .Wrr128phases => 128
  | .Reserved _ => 0

/-- src/extended_capabilities/virtual_channel.rs:490-503 -/
def PortArbitrationSelect.port_arbitration_table_length : PortArbitrationSelect → Nat
  | .HardwareFixedArbitration => 0
  | .Wrr32phases => 32
  | .Wrr64phases => 64
  | .Wrr128phases => 128
  | .TimeBasedWrr128phases => 128
  | .Wrr256phases => 256
  | .Reserved _ => 0

/-- src/extended_capabilities/virtual_channel.rs:149-166 -/
def VirtualChannel.ofBytes (slice : Bytes) : Res ExtendedCapabilityDataError VirtualChannel := do
  let (port_vc_capability_1, port_vc_capability_2, port_vc_control, port_vc_status) ← BP.head (do
    let port_vc_capability_1 ← le32
    let port_vc_capability_2 ← le32
    let port_vc_control ← le16
    let port_vc_status ← le16
    return (port_vc_capability_1, port_vc_capability_2, port_vc_control, port_vc_status))
    { name := "Virtual Channel", size := 8 } slice
  return {
    data := slice
    port_vc_capability_1 := PortVcCapability1.ofU32 port_vc_capability_1
    port_vc_capability_2 := PortVcCapability2.ofU32 port_vc_capability_2
    port_vc_control := PortVcControl.ofU16 port_vc_control
    port_vc_status := PortVcStatus.ofU16 port_vc_status }

/-- src/extended_capabilities/virtual_channel.rs:109-114; indexing out of the slice panics -/
def VirtualChannel.extended_virtual_channels {ε : Type} (vc : VirtualChannel) :
    Res ε ExtendedVirtualChannels := do
  let count := vc.port_vc_capability_1.extended_vc_count
  let start := 0x10 - 4
  let data ← Res.orPanic (getFrom vc.data start)
  ExtendedVirtualChannels.new data count

/-- src/extended_capabilities/virtual_channel.rs:115-126; a negative start (subtraction overflow,
line 121) and indexing out of the slice (line 124) panic -/
def VirtualChannel.vc_arbitration_table {ε : Type} (vc : VirtualChannel) :
    Res ε VcArbitrationTable := do
  let offset := vc.port_vc_capability_2.vc_arbitration_table_offset
  let entries_number := vc.port_vc_control.vc_arbitration_select.vc_arbitration_table_length
  if offset.toNat * 16 < 4 then .panic
  let start := offset.toNat * 16 - 4
  let «end» := start + entries_number / 2
  let data ← Res.orPanic (getRange vc.data start «end»)
  return VcArbitrationTable.new data

/-- src/extended_capabilities/virtual_channel.rs:127-144; a negative start (line 140) and indexing
out of the slice (line 142) panic -/
def VirtualChannel.port_arbitration_table {ε : Type} (vc : VirtualChannel)
    (evc : ExtendedVirtualChannel) : Res ε PortArbitrationTable := do
  let offset := evc.vc_resource_capability.port_arbitration_table_offset
  let entry_size_bits := vc.port_vc_capability_1.port_arbitration_table_entry_size.bits
  let entries_number := evc.vc_resource_control.port_arbitration_select.port_arbitration_table_length
  if offset.toNat * 16 < 4 then .panic
  let start := offset.toNat * 16 - 4
  let «end» := start + entry_size_bits * entries_number / 8
  let data ← Res.orPanic (getRange vc.data start «end»)
  return PortArbitrationTable.new data entry_size_bits

end Pcics.VirtualChannel
