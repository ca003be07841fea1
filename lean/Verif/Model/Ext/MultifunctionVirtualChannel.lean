import Verif.Model.Ext.VirtualChannel
/- Model of src/extended_capabilities/multifunction_virtual_channel.rs -/

namespace Pcics.MultifunctionVirtualChannel

/-! The types re-exported from virtual_channel.rs (lines 120-123). -/
open VirtualChannel (PortVcCapability2 PortVcControl PortVcStatus ReferenceClock
  VcArbitrationCapability VcArbitrationSelect VcArbitrationTable)

/-- src/extended_capabilities/multifunction_virtual_channel.rs:129-140 -/
inductive MultifunctionVirtualChannelError where
  | PortVcData
  | VcArbitrationTableOffset
  | VcArbitrationTableData
  | VcArbitrationTableLength (expected : Nat) (real : Nat)
  | FunctionArbitrationTable0
  deriving DecidableEq, Repr

/-- src/extended_capabilities/multifunction_virtual_channel.rs:265-265 -/
structure FunctionArbitrationTableEntrySize where
  val : U8
  deriving DecidableEq, Repr

/-- src/extended_capabilities/multifunction_virtual_channel.rs:225-237 -/
structure PortVcCapability1 where
  extended_vc_count : U8
  low_priority_extended_vc_count : U8
  reference_clock : ReferenceClock
  function_arbitration_table_entry_size : FunctionArbitrationTableEntrySize
  deriving DecidableEq, Repr

/-- src/extended_capabilities/multifunction_virtual_channel.rs:280-285 -/
structure ExtendedVirtualChannels where
  data : Bytes
  count : U8
  fat_entry_bits : Nat
  offset : Nat
  deriving DecidableEq, Repr

/-- src/extended_capabilities/multifunction_virtual_channel.rs:144-155 -/
structure MultifunctionVirtualChannel where
  port_vc_capability_1 : PortVcCapability1
  port_vc_capability_2 : PortVcCapability2
  port_vc_control : PortVcControl
  port_vc_status : PortVcStatus
  vc_arbitration_table : Option VcArbitrationTable
  extended_virtual_channels : ExtendedVirtualChannels
  deriving DecidableEq, Repr

/-- src/extended_capabilities/multifunction_virtual_channel.rs:272-276 -/
def FunctionArbitrationTableEntrySize.ofU8 (b : U8) : FunctionArbitrationTableEntrySize := ⟨b⟩

/-- src/extended_capabilities/multifunction_virtual_channel.rs:266-270. The shift overflows for
values above 63, which `PortVcCapability1::from` (a 2-bit field) never makes. -/
def FunctionArbitrationTableEntrySize.bits (s : FunctionArbitrationTableEntrySize) : Nat :=
  1 <<< s.val.toNat

/-- src/extended_capabilities/multifunction_virtual_channel.rs:239-259 -/
def PortVcCapability1.ofU32 (w : U32) : PortVcCapability1 := runBits w do
  let extended_vc_count ← bits 3
  skip 1
  let low_priority_extended_vc_count ← bits 3
  skip 1
  let reference_clock ← bits 2
  let function_arbitration_table_entry_size ← bits 2
  skip 20
  return {
    extended_vc_count := extended_vc_count,
    low_priority_extended_vc_count := low_priority_extended_vc_count,
    reference_clock := ReferenceClock.ofU8 reference_clock,
    function_arbitration_table_entry_size := FunctionArbitrationTableEntrySize.ofU8 function_arbitration_table_entry_size }

/-- src/extended_capabilities/multifunction_virtual_channel.rs:422-437 -/
structure FunctionArbitrationCapability where
  hardware_fixed_arbitration : Bool
  wrr_32_phases : Bool
  wrr_64_phases : Bool
  wrr_128_phases : Bool
  time_based_wrr_128_phases : Bool
  wrr_256_phases : Bool
  reserved : U8
  deriving DecidableEq, Repr

/-- src/extended_capabilities/multifunction_virtual_channel.rs:368-376 -/
structure VcResourceCapability where
  function_arbitration_capability : FunctionArbitrationCapability
  maximum_time_slots : U8
  function_arbitration_table_offset : U8
  deriving DecidableEq, Repr

/-- src/extended_capabilities/multifunction_virtual_channel.rs:503-518 -/
inductive FunctionArbitrationSelect where
  | HardwareFixedArbitration
  | Wrr32phases
  | Wrr64phases
  | Wrr128phases
  | TimeBasedWrr128phases
  | Wrr256phases
  | Reserved (v : U8)
  deriving DecidableEq, Repr

/-- src/extended_capabilities/multifunction_virtual_channel.rs:453-464 -/
structure VcResourceControl where
  tc_to_vc_map : U8
  load_function_arbitration_table : Bool
  function_arbitration_select : FunctionArbitrationSelect
  vc_id : U8
  vc_enable : Bool
  deriving DecidableEq, Repr

/-- src/extended_capabilities/multifunction_virtual_channel.rs:562-569 -/
structure VcResourceStatus where
  function_arbitration_table_status : Bool
  vc_negotiation_pending : Bool
  deriving DecidableEq, Repr

/-- src/extended_capabilities/multifunction_virtual_channel.rs:594-599 -/
structure FunctionArbitrationTable where
  data : Bytes
  entry_size_bits : Nat
  shift : Nat
  byte : U8
  deriving DecidableEq, Repr

/-- src/extended_capabilities/multifunction_virtual_channel.rs:329-334 -/
structure ExtendedVirtualChannel where
  vc_resource_capability : VcResourceCapability
  vc_resource_control : VcResourceControl
  vc_resource_status : VcResourceStatus
  function_arbitration_table : Option FunctionArbitrationTable
  deriving DecidableEq, Repr

/-- src/extended_capabilities/multifunction_virtual_channel.rs:378-407 -/
def VcResourceCapability.ofU32 (w : U32) : VcResourceCapability := runBits w do
  let hardware_fixed_arbitration ← bit
  let wrr_32_phases ← bit
  let wrr_64_phases ← bit
  let wrr_128_phases ← bit
  let time_based_wrr_128_phases ← bit
  let wrr_256_phases ← bit
  let reserved ← bits 2
  skip 8
  let maximum_time_slots ← bits 7
  skip 1
  let function_arbitration_table_offset ← bits 8
  return {
    function_arbitration_capability := {
      hardware_fixed_arbitration := hardware_fixed_arbitration, wrr_32_phases := wrr_32_phases,
      wrr_64_phases := wrr_64_phases, wrr_128_phases := wrr_128_phases,
      time_based_wrr_128_phases := time_based_wrr_128_phases, wrr_256_phases := wrr_256_phases,
      reserved := reserved },
    maximum_time_slots := maximum_time_slots,
    function_arbitration_table_offset := function_arbitration_table_offset }

/-- src/extended_capabilities/multifunction_virtual_channel.rs:533-545 -/
def FunctionArbitrationSelect.ofU8 (b : U8) : FunctionArbitrationSelect :=
  match b.toNat with
  | 0b000 => .HardwareFixedArbitration
  | 0b001 => .Wrr32phases
  | 0b010 => .Wrr64phases
  | 0b011 => .Wrr128phases
  | 0b100 => .TimeBasedWrr128phases
  | 0b101 => .Wrr256phases
  | _ => .Reserved b

/-- src/extended_capabilities/multifunction_virtual_channel.rs:466-486 -/
def VcResourceControl.ofU32 (w : U32) : VcResourceControl := runBits w do
  let tc_to_vc_map ← bits 8
  skip 8
  let load_function_arbitration_table ← bit
  let function_arbitration_select ← bits 3
  skip 4
  let vc_id ← bits 3
  skip 4
  let vc_enable ← bit
  return {
    tc_to_vc_map := tc_to_vc_map,
    load_function_arbitration_table := load_function_arbitration_table,
    function_arbitration_select := FunctionArbitrationSelect.ofU8 function_arbitration_select,
    vc_id := vc_id, vc_enable := vc_enable }

/-- src/extended_capabilities/multifunction_virtual_channel.rs:546-558 -/
def FunctionArbitrationSelect.toU8 : FunctionArbitrationSelect → U8
  | .HardwareFixedArbitration => 0
  | .Wrr32phases => 1
  | .Wrr64phases => 2
  | .Wrr128phases => 3
  | .TimeBasedWrr128phases => 4
  | .Wrr256phases => 5
  | .Reserved n => n

/-- src/extended_capabilities/multifunction_virtual_channel.rs:571-580 -/
def VcResourceStatus.ofU16 (w : U16) : VcResourceStatus := runBits w do
  let function_arbitration_table_status ← bit
  let vc_negotiation_pending ← bit
  skip 14
  return {
    function_arbitration_table_status := function_arbitration_table_status,
    vc_negotiation_pending := vc_negotiation_pending }

/-- src/extended_capabilities/multifunction_virtual_channel.rs:643-643 -/
structure FunctionArbitrationTableEntry where
  val : U8
  deriving DecidableEq, Repr

/-- src/extended_capabilities/multifunction_virtual_channel.rs:439-449 -/
def FunctionArbitrationCapability.toU8 (fac : FunctionArbitrationCapability) : U8 :=
  BitVec.ofNat 8 (b2n fac.hardware_fixed_arbitration)
    ||| BitVec.ofNat 8 (b2n fac.wrr_32_phases) <<< 1
    ||| BitVec.ofNat 8 (b2n fac.wrr_64_phases) <<< 2
    ||| BitVec.ofNat 8 (b2n fac.wrr_128_phases) <<< 3
    ||| BitVec.ofNat 8 (b2n fac.time_based_wrr_128_phases) <<< 4
    ||| BitVec.ofNat 8 (b2n fac.wrr_256_phases) <<< 5
    ||| fac.reserved <<< 6

/-- src/extended_capabilities/multifunction_virtual_channel.rs:409-418 -/
def VcResourceCapability.toU32 (cap : VcResourceCapability) : U32 :=
  u32le cap.function_arbitration_capability.toU8 0 cap.maximum_time_slots
    cap.function_arbitration_table_offset

/-- src/extended_capabilities/multifunction_virtual_channel.rs:488-498 -/
def VcResourceControl.toU32 (ctrl : VcResourceControl) : U32 :=
  u32le ctrl.tc_to_vc_map 0
    (BitVec.ofNat 8 (b2n ctrl.load_function_arbitration_table)
      ||| ctrl.function_arbitration_select.toU8 <<< 1)
    (ctrl.vc_id ||| BitVec.ofNat 8 (b2n ctrl.vc_enable) <<< 7)

/-- src/extended_capabilities/multifunction_virtual_channel.rs:582-589 -/
def VcResourceStatus.toU16 (st : VcResourceStatus) : U16 :=
  (0 : U8) ++ (BitVec.ofNat 8 (b2n st.function_arbitration_table_status)
    ||| BitVec.ofNat 8 (b2n st.vc_negotiation_pending) <<< 1 : U8)

/-- src/extended_capabilities/multifunction_virtual_channel.rs:340-352, for the array of 12 bytes that `Seq`
takes from the slice (305-307); `none` if there are fewer -/
def ExtendedVirtualChannel.ofBytes (data : Bytes) : Option ExtendedVirtualChannel := do
  let ((vc_resource_capability, vc_resource_control, vc_resource_status), _) ← (do
    let vc_resource_capability ← le32
    let vc_resource_control ← le32
    let _ ← le16
    let vc_resource_status ← le16
    return (vc_resource_capability, vc_resource_control, vc_resource_status) :
      BP (U32 × U32 × U16)) data
  some {
    vc_resource_capability := VcResourceCapability.ofU32 vc_resource_capability
    vc_resource_control := VcResourceControl.ofU32 vc_resource_control
    vc_resource_status := VcResourceStatus.ofU16 vc_resource_status
    function_arbitration_table := none }

/-- `uN::to_le_bytes()` -/
def leBytes {m : Nat} (n : Nat) (w : BitVec m) : Bytes :=
  (List.range n).map fun i => (w >>> (8 * i)).setWidth 8

/-- src/extended_capabilities/multifunction_virtual_channel.rs:354-363 -/
def ExtendedVirtualChannel.toBytes (evc : ExtendedVirtualChannel) : Bytes :=
  let cap := leBytes 4 evc.vc_resource_capability.toU32
  let ctrl := leBytes 4 evc.vc_resource_control.toU32
  let st := leBytes 2 evc.vc_resource_status.toU16
  cap ++ ctrl ++ [0, 0] ++ st

/-- src/extended_capabilities/multifunction_virtual_channel.rs:519-532 -/
def FunctionArbitrationSelect.function_arbitration_table_length : FunctionArbitrationSelect → Nat
  | .HardwareFixedArbitration => 0
  | .Wrr32phases => 32
  | .Wrr64phases => 64
  | .Wrr128phases => 128
  | .TimeBasedWrr128phases => 128
  | .Wrr256phases => 256
  | .Reserved _ => 0

/-- src/extended_capabilities/multifunction_virtual_channel.rs:601-610 -/
def FunctionArbitrationTable.new (data : Bytes) (entry_size_bits : Nat) : FunctionArbitrationTable :=
  { data := data, entry_size_bits := entry_size_bits, shift := 0, byte := 0 }

/-- src/extended_capabilities/multifunction_virtual_channel.rs:612-629. For entry sizes above 8
the shift of a u8 overflows: `nextChecked` in Model/Accessors.lean. -/
def FunctionArbitrationTable.next (t : FunctionArbitrationTable) :
    Option (FunctionArbitrationTableEntry × FunctionArbitrationTable) :=
  if t.entry_size_bits = 8 then
    match t.data with
    | [] => none
    | v :: data => some (⟨v⟩, { t with data := data })
  else do
    let t ←
      if t.shift = 0 then
        match t.data with
        | [] => none
        | byte :: data => some { t with data := data, byte := byte }
      else some t
    let init_mask : U8 := ~~~(0xff#8 <<< t.entry_size_bits)
    let mask := init_mask <<< t.shift
    let result := (t.byte &&& mask) >>> t.shift
    some (⟨result⟩, { t with shift := (t.shift + t.entry_size_bits) % 8 })

/-- src/extended_capabilities/multifunction_virtual_channel.rs:286-296; `extended_vc_count + 1` overflows for 255 -/
def ExtendedVirtualChannels.new {ε : Type} (data : Bytes) (extended_vc_count : U8)
    (fat_entry_bits : Nat) : Res ε ExtendedVirtualChannels :=
  if extended_vc_count = 255 then .panic
  else .ok {
    data := data, count := extended_vc_count + 1, fat_entry_bits := fat_entry_bits, offset := 0x10 }

/-- src/extended_capabilities/multifunction_virtual_channel.rs:297-325 -/
def ExtendedVirtualChannels.next (s : ExtendedVirtualChannels) :
    Option (ExtendedVirtualChannel × ExtendedVirtualChannels) :=
  if s.count = 0 then none
  else do
    let slice ← getFrom s.data s.offset
    let evc ← ExtendedVirtualChannel.ofBytes slice
    let fat_offset := evc.vc_resource_capability.function_arbitration_table_offset.toNat
    let evc :=
      if 2 ≤ fat_offset then
        let offset := fat_offset * 0x10
        let number_of_entries :=
          evc.vc_resource_control.function_arbitration_select.function_arbitration_table_length
        let length := s.fat_entry_bits * number_of_entries / 8
        { evc with
          function_arbitration_table := (getRange s.data offset (offset + length)).map
            fun data => FunctionArbitrationTable.new data s.fat_entry_bits }
      else evc
    some (evc, { s with count := s.count - 1, offset := s.offset + 12 })

/-- src/extended_capabilities/multifunction_virtual_channel.rs:160-217 -/
def MultifunctionVirtualChannel.ofBytes (slice : Bytes) :
    Res MultifunctionVirtualChannelError MultifunctionVirtualChannel := do
  let (port_vc_capability_1, port_vc_capability_2, port_vc_control, port_vc_status) ← BP.head (do
    let _ ← le32
    let port_vc_capability_1 ← le32
    let port_vc_capability_2 ← le32
    let port_vc_control ← le16
    let port_vc_status ← le16
    return (port_vc_capability_1, port_vc_capability_2, port_vc_control, port_vc_status))
    .PortVcData slice
  let port_vc_capability_1 := PortVcCapability1.ofU32 port_vc_capability_1
  let port_vc_capability_2 := PortVcCapability2.ofU32 port_vc_capability_2
  let port_vc_control := PortVcControl.ofU16 port_vc_control
  let port_vc_status := PortVcStatus.ofU16 port_vc_status
  let vc_arbitration_table ←
    if port_vc_capability_2.vc_arbitration_table_offset = 0 then .ok none
    else if port_vc_capability_2.vc_arbitration_table_offset < 2 then .err .VcArbitrationTableOffset
    else do
      let vat_offset := port_vc_capability_2.vc_arbitration_table_offset.toNat * 0x10
      let vat_slice ← Res.okOr .VcArbitrationTableData (getFrom slice vat_offset)
      let number_of_entries := port_vc_control.vc_arbitration_select.vc_arbitration_table_length
      let length := number_of_entries * 4 / 8
      let vat_data ← Res.okOr (.VcArbitrationTableLength length vat_slice.length)
        (getTo vat_slice length)
      pure (some (VcArbitrationTable.new vat_data))
  let extended_virtual_channels ← ExtendedVirtualChannels.new slice
    port_vc_capability_1.extended_vc_count
    port_vc_capability_1.function_arbitration_table_entry_size.bits
  return {
    extended_virtual_channels := extended_virtual_channels
    port_vc_capability_1 := port_vc_capability_1
    port_vc_capability_2 := port_vc_capability_2
    port_vc_control := port_vc_control
    port_vc_status := port_vc_status
    vc_arbitration_table := vc_arbitration_table }

end Pcics.MultifunctionVirtualChannel
