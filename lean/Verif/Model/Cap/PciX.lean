import Verif.Model.Common
/- Model of src/capabilities/pci_x.rs -/

namespace Pcics.PciX

/-- src/capabilities/pci_x.rs:172-179 -/
inductive PciXError where
  | CommandAndStatus
  | EccMode2Only
  | EccMode1OrMode2
  deriving DecidableEq, Repr

/-- src/capabilities/pci_x.rs:274-274 -/
structure MaximumByteCount where
  val : U8
  deriving DecidableEq, Repr

/-- src/capabilities/pci_x.rs:284-284 -/
structure MaximumOutstandingSplitTransactions where
  val : U8
  deriving DecidableEq, Repr

/-- src/capabilities/pci_x.rs:241-249 -/
structure Command where
  uncorrectable_data_error_recovery_enable : Bool
  enable_relaxed_ordering : Bool
  maximum_memory_read_byte_count : MaximumByteCount
  maximum_outstanding_split_transactions : MaximumOutstandingSplitTransactions
  deriving DecidableEq, Repr

/-- src/capabilities/pci_x.rs:377-380 -/
inductive DeviceComplexity where
  | Simple
  | Bridge
  deriving DecidableEq, Repr

/-- src/capabilities/pci_x.rs:395-395 -/
structure MaximumCumulativeReadSize where
  val : U8
  deriving DecidableEq, Repr

/-- src/capabilities/pci_x.rs:303-331 -/
structure Status where
  function_number : U8
  device_number : U8
  bus_number : U8
  device_64_bit : Bool
  pci_x_133_capable : Bool
  slit_completion_discarded : Bool
  unexpected_split_completion : Bool
  device_complexity : DeviceComplexity
  designed_maximum_memory_read_byte_count : MaximumByteCount
  designed_maximum_outstanding_split_transactions : MaximumOutstandingSplitTransactions
  designed_maximum_cumulative_read_size : MaximumCumulativeReadSize
  received_split_completion_error_message : Bool
  pci_x_266_capable : Bool
  pci_x_533_capable : Bool
  deriving DecidableEq, Repr

/-- src/capabilities/pci_x.rs:491-506 -/
inductive EccErrorPhase where
  | NoError
  | First32bits
  | Second32bits
  | AttributePhase
  | Phase32or16bit
  | Phase64bit
  | Reserved
  deriving DecidableEq, Repr

/-- src/capabilities/pci_x.rs:524-541 -/
structure Syndrome where
  e0 : Bool
  e1 : Bool
  e2 : Bool
  e3 : Bool
  e4 : Bool
  e5 : Bool
  e6 : Bool
  e7 : Bool
  deriving DecidableEq, Repr

/-- src/capabilities/pci_x.rs:427-452 -/
structure EccControlAndStatus where
  select_secondary_ecc_registers : Bool
  error_present_in_other_ecc_register_bank : Bool
  additional_correctable_ecc_error : Bool
  additional_uncorrectable_ecc_error : Bool
  ecc_error_phase : EccErrorPhase
  ecc_error_corrected : Bool
  syndrome : Syndrome
  error_first_command : U8
  error_second_command : U8
  error_upper_attributes : U8
  ecc_control_update_enable : Bool
  disable_single_bit_error_correction : Bool
  ecc_mode : Bool
  deriving DecidableEq, Repr

/-- src/capabilities/pci_x.rs:408-423 -/
inductive Ecc where
  | None
  | Mode2Only (control_and_status : EccControlAndStatus) (first_address : U32) (second_address : U32) («attribute» : U32)
  | Mode1OrMode2 (control_and_status : EccControlAndStatus) (first_address : U32) (second_address : U32) («attribute» : U32)
  | Reserved
  deriving DecidableEq, Repr

/-- src/capabilities/pci_x.rs:183-187 -/
structure PciX where
  command : Command
  status : Status
  ecc : Ecc
  deriving DecidableEq, Repr

/-- src/capabilities/pci_x.rs:251-269 -/
def Command.ofU16 (w : U16) : Command := runBits w do
  let uncorrectable_data_error_recovery_enable ← bit
  let enable_relaxed_ordering ← bit
  let maximum_memory_read_byte_count ← bits 2
  let maximum_outstanding_split_transactions ← bits 3
  skip 9
  return {
    uncorrectable_data_error_recovery_enable := uncorrectable_data_error_recovery_enable,
    enable_relaxed_ordering := enable_relaxed_ordering,
    maximum_memory_read_byte_count := ⟨maximum_memory_read_byte_count⟩,
    maximum_outstanding_split_transactions := ⟨maximum_outstanding_split_transactions⟩ }

/-- src/capabilities/pci_x.rs:381-389 -/
def DeviceComplexity.ofBOOL (b : Bool) : DeviceComplexity := if b then .Bridge else .Simple

/-- src/capabilities/pci_x.rs:333-374 -/
def Status.ofU32 (w : U32) : Status := runBits w do
  let function_number ← bits 3
  let device_number ← bits 5
  let bus_number ← bits 8
  let device_64_bit ← bit
  let pci_x_133_capable ← bit
  let slit_completion_discarded ← bit
  let unexpected_split_completion ← bit
  let device_complexity ← bit
  let designed_maximum_memory_read_byte_count ← bits 2
  let designed_maximum_outstanding_split_transactions ← bits 3
  let designed_maximum_cumulative_read_size ← bits 3
  let received_split_completion_error_message ← bit
  let pci_x_266_capable ← bit
  let pci_x_533_capable ← bit
  return {
    function_number := function_number, device_number := device_number, bus_number := bus_number,
    device_64_bit := device_64_bit, pci_x_133_capable := pci_x_133_capable,
    slit_completion_discarded := slit_completion_discarded,
    unexpected_split_completion := unexpected_split_completion,
    device_complexity := DeviceComplexity.ofBOOL device_complexity,
    designed_maximum_memory_read_byte_count := ⟨designed_maximum_memory_read_byte_count⟩,
    designed_maximum_outstanding_split_transactions := ⟨designed_maximum_outstanding_split_transactions⟩,
    designed_maximum_cumulative_read_size := ⟨designed_maximum_cumulative_read_size⟩,
    received_split_completion_error_message := received_split_completion_error_message,
    pci_x_266_capable := pci_x_266_capable, pci_x_533_capable := pci_x_533_capable }

/-- src/capabilities/pci_x.rs:507-520 -/
def EccErrorPhase.ofU8 {ε : Type} (b : U8) : Res ε EccErrorPhase :=
  match b.toNat with
  | 0 => .ok .NoError
  | 1 => .ok .First32bits
  | 2 => .ok .Second32bits
  | 3 => .ok .AttributePhase
  | 4 => .ok .Phase32or16bit
  | 5 => .ok .Phase64bit
  | 6 | 7 => .ok .Reserved
  | _ => .panic

/-- src/capabilities/pci_x.rs:543-557 -/
def Syndrome.ofU8 (w : U8) : Syndrome := runBits w do
  let e0 ← bit
  let e1 ← bit
  let e2 ← bit
  let e3 ← bit
  let e4 ← bit
  let e5 ← bit
  let e6 ← bit
  let e7 ← bit
  return { e0 := e0, e1 := e1, e2 := e2, e3 := e3, e4 := e4, e5 := e5, e6 := e6, e7 := e7 }

/-- src/capabilities/pci_x.rs:453-487 -/
def EccControlAndStatus.ofU32 {ε : Type} (w : U32) : Res ε EccControlAndStatus := runBits w do
  let select_secondary_ecc_registers ← bit
  let error_present_in_other_ecc_register_bank ← bit
  let additional_correctable_ecc_error ← bit
  let additional_uncorrectable_ecc_error ← bit
  let ecc_error_phase ← bits 3
  let ecc_error_corrected ← bit
  let syndrome ← bits 8
  let error_first_command ← bits 4
  let error_second_command ← bits 4
  let error_upper_attributes ← bits 4
  let ecc_control_update_enable ← bit
  skip 1
  let disable_single_bit_error_correction ← bit
  let ecc_mode ← bit
  return do
    let ecc_error_phase ← EccErrorPhase.ofU8 ecc_error_phase
    return {
      select_secondary_ecc_registers := select_secondary_ecc_registers,
      error_present_in_other_ecc_register_bank := error_present_in_other_ecc_register_bank,
      additional_correctable_ecc_error := additional_correctable_ecc_error,
      additional_uncorrectable_ecc_error := additional_uncorrectable_ecc_error,
      ecc_error_phase := ecc_error_phase, ecc_error_corrected := ecc_error_corrected,
      syndrome := Syndrome.ofU8 syndrome, error_first_command := error_first_command,
      error_second_command := error_second_command,
      error_upper_attributes := error_upper_attributes,
      ecc_control_update_enable := ecc_control_update_enable,
      disable_single_bit_error_correction := disable_single_bit_error_correction,
      ecc_mode := ecc_mode }

/-- src/capabilities/pci_x.rs:561-568 -/
inductive PciXBridgeError where
  | Mandatory
  | BridgeEccMode2Only
  | BridgeEccMode1OrMode2
  deriving DecidableEq, Repr

/-- src/capabilities/pci_x.rs:737-746 -/
inductive SecondaryBusMode where
  | Conventional
  | Mode1
  | PciX266
  | PciX533
  deriving DecidableEq, Repr

/-- src/capabilities/pci_x.rs:762-767 -/
inductive ErrorProtection where
  | Parity
  | Ecc
  deriving DecidableEq, Repr

/-- src/capabilities/pci_x.rs:781-792 -/
inductive SecondaryBusFrequency where
  | NotAvailable
  | Freq66MHz
  | Freq100MHz
  | Freq133MHz
  | Reserved
  deriving DecidableEq, Repr

/-- src/capabilities/pci_x.rs:651-671 -/
structure SecondaryStatus where
  device_64_bit : Bool
  pci_x_133_capable : Bool
  slit_completion_discarded : Bool
  unexpected_split_completion : Bool
  split_completion_overrun : Bool
  split_request_delayed : Bool
  secondary_bus_mode : SecondaryBusMode
  error_protection : ErrorProtection
  secondary_bus_frequency : SecondaryBusFrequency
  pci_x_266_capable : Bool
  pci_x_533_capable : Bool
  deriving DecidableEq, Repr

/-- src/capabilities/pci_x.rs:810-835 -/
structure BridgeStatus where
  function_number : U8
  device_number : U8
  bus_number : U8
  device_64_bit : Bool
  pci_x_133_capable : Bool
  slit_completion_discarded : Bool
  unexpected_split_completion : Bool
  split_completion_overrun : Bool
  split_request_delayed : Bool
  device_id_messaging_capable : Bool
  pci_x_266_capable : Bool
  pci_x_533_capable : Bool
  deriving DecidableEq, Repr

/-- src/capabilities/pci_x.rs:873-878 -/
structure SplitTransactionControl where
  split_transaction_capacity : U16
  split_transaction_commitment_limit : U16
  deriving DecidableEq, Repr

/-- src/capabilities/pci_x.rs:572-578 -/
structure PciXBridge where
  secondary_status : SecondaryStatus
  bridge_status : BridgeStatus
  upstream_split_transaction_control : SplitTransactionControl
  downstream_split_transaction_control : SplitTransactionControl
  ecc : Ecc
  deriving DecidableEq, Repr

/-- src/capabilities/pci_x.rs:748-758 -/
def SecondaryBusMode.ofU8 {ε : Type} (b : U8) : Res ε SecondaryBusMode :=
  match b.toNat with
  | 0x0 => .ok .Conventional
  | 1 | 2 | 3 | 4 | 5 | 6 | 7 => .ok .Mode1
  | 8 | 9 | 10 | 11 => .ok .PciX266
  | 12 | 13 | 14 | 15 => .ok .PciX533
  | _ => .panic

/-- src/capabilities/pci_x.rs:769-777 -/
def ErrorProtection.ofU8 {ε : Type} (b : U8) : Res ε ErrorProtection :=
  match b.toNat with
  | 0 | 1 | 2 | 3 => .ok .Parity
  | 4 | 5 | 6 | 7 | 8 | 9 | 10 | 11 | 12 | 13 | 14 | 15 => .ok .Ecc
  | _ => .panic

/-- src/capabilities/pci_x.rs:794-805 -/
def SecondaryBusFrequency.ofU8 {ε : Type} (b : U8) : Res ε SecondaryBusFrequency :=
  match b.toNat with
  | 0x0 => .ok .NotAvailable
  | 0x1 | 0x5 | 0x9 | 0xD => .ok .Freq66MHz
  | 0x2 | 0x6 | 0xA | 0xE => .ok .Freq100MHz
  | 0x3 | 0x7 | 0xB | 0xF => .ok .Freq133MHz
  | 0x4 | 0x8 | 0xC => .ok .Reserved
  | _ => .panic

/-- src/capabilities/pci_x.rs:704-733 -/
def SecondaryStatus.ofU16 {ε : Type} (w : U16) : Res ε SecondaryStatus := runBits w do
  let device_64_bit ← bit
  let pci_x_133_capable ← bit
  let slit_completion_discarded ← bit
  let unexpected_split_completion ← bit
  let split_completion_overrun ← bit
  let split_request_delayed ← bit
  let secondary_bus_mode_and_frequency ← bits 4
  skip 2
  skip 2
  let pci_x_266_capable ← bit
  let pci_x_533_capable ← bit
  return do
    let secondary_bus_mode ← SecondaryBusMode.ofU8 secondary_bus_mode_and_frequency
    let error_protection ← ErrorProtection.ofU8 secondary_bus_mode_and_frequency
    let secondary_bus_frequency ← SecondaryBusFrequency.ofU8 secondary_bus_mode_and_frequency
    return {
      device_64_bit := device_64_bit, pci_x_133_capable := pci_x_133_capable,
      slit_completion_discarded := slit_completion_discarded,
      unexpected_split_completion := unexpected_split_completion,
      split_completion_overrun := split_completion_overrun,
      split_request_delayed := split_request_delayed, secondary_bus_mode := secondary_bus_mode,
      error_protection := error_protection, secondary_bus_frequency := secondary_bus_frequency,
      pci_x_266_capable := pci_x_266_capable, pci_x_533_capable := pci_x_533_capable }

/-- src/capabilities/pci_x.rs:837-869 -/
def BridgeStatus.ofU32 (w : U32) : BridgeStatus := runBits w do
  let function_number ← bits 3
  let device_number ← bits 5
  let bus_number ← bits 8
  let device_64_bit ← bit
  let pci_x_133_capable ← bit
  let slit_completion_discarded ← bit
  let unexpected_split_completion ← bit
  let split_completion_overrun ← bit
  let split_request_delayed ← bit
  skip 7
  let device_id_messaging_capable ← bit
  let pci_x_266_capable ← bit
  let pci_x_533_capable ← bit
  return {
    function_number := function_number, device_number := device_number, bus_number := bus_number,
    device_64_bit := device_64_bit, pci_x_133_capable := pci_x_133_capable,
    slit_completion_discarded := slit_completion_discarded,
    unexpected_split_completion := unexpected_split_completion,
    split_completion_overrun := split_completion_overrun,
    split_request_delayed := split_request_delayed,
    device_id_messaging_capable := device_id_messaging_capable,
    pci_x_266_capable := pci_x_266_capable, pci_x_533_capable := pci_x_533_capable }

/-- src/capabilities/pci_x.rs:274-279.  `self.0 + 9` is an `u8` addition, `1 <<` an `usize` shift;
both overflow checks are modelled. -/
def MaximumByteCount.value (c : MaximumByteCount) : Res Unit Nat :=
  if 256 ≤ c.val.toNat + 9 ∨ 64 ≤ c.val.toNat + 9 then .panic else .ok (1 <<< (c.val.toNat + 9))

/-- src/capabilities/pci_x.rs:284-299 -/
def MaximumOutstandingSplitTransactions.value (c : MaximumOutstandingSplitTransactions) :
    Res Unit U8 :=
  match c.val.toNat with
  | 0 => .ok 1
  | 1 => .ok 2
  | 2 => .ok 3
  | 3 => .ok 4
  | 4 => .ok 8
  | 5 => .ok 12
  | 6 => .ok 16
  | 7 => .ok 32
  | _ => .panic

/-- src/capabilities/pci_x.rs:397-399 -/
def MaximumCumulativeReadSize.adqs (c : MaximumCumulativeReadSize) : Res Unit Nat :=
  if 256 ≤ c.val.toNat + 3 ∨ 64 ≤ c.val.toNat + 3 then .panic else .ok (1 <<< (c.val.toNat + 3))

/-- src/capabilities/pci_x.rs:400-402 -/
def MaximumCumulativeReadSize.bytes (c : MaximumCumulativeReadSize) : Res Unit Nat :=
  if 64 ≤ c.val.toNat then .panic else .ok (1 <<< c.val.toNat)

/-- src/capabilities/pci_x.rs:673-702 -/
def SecondaryStatus.secondary_bus_mode_and_frequency (s : SecondaryStatus) : Res Unit U8 :=
  match s.secondary_bus_mode, s.error_protection, s.secondary_bus_frequency with
  | .Conventional, .Parity, .NotAvailable => .ok 0x0
  | .Mode1, .Parity, .Freq66MHz => .ok 0x1
  | .Mode1, .Parity, .Freq100MHz => .ok 0x2
  | .Mode1, .Parity, .Freq133MHz => .ok 0x3
  | .Mode1, .Ecc, .Reserved => .ok 0x4
  | .Mode1, .Ecc, .Freq66MHz => .ok 0x5
  | .Mode1, .Ecc, .Freq100MHz => .ok 0x6
  | .Mode1, .Ecc, .Freq133MHz => .ok 0x7
  | .PciX266, .Ecc, .Reserved => .ok 0x8
  | .PciX266, .Ecc, .Freq66MHz => .ok 0x9
  | .PciX266, .Ecc, .Freq100MHz => .ok 0xA
  | .PciX266, .Ecc, .Freq133MHz => .ok 0xB
  | .PciX533, .Ecc, .Reserved => .ok 0xC
  | .PciX533, .Ecc, .Freq66MHz => .ok 0xD
  | .PciX533, .Ecc, .Freq100MHz => .ok 0xE
  | .PciX533, .Ecc, .Freq133MHz => .ok 0xF
  | _, _, _ => .panic

/-- src/capabilities/pci_x.rs:203-206, 600-623: the four ECC dwords -/
def eccDwords : BP (U32 × U32 × U32 × U32) := do
  let control_and_status ← le32
  let first_address ← le32
  let second_address ← le32
  let «attribute» ← le32
  return (control_and_status, first_address, second_address, «attribute»)

/-- src/capabilities/pci_x.rs:199-230 and 598-632 (the same code twice, with the respective error
values): the ECC registers, selected by bits 13:12 of `word`. -/
def eccRegisters {ε : Type} (mode2Only mode1OrMode2 : ε) (word : U16) (slice : Bytes) : Res ε Ecc :=
  let version : U8 := runBits word do
    skip 12
    let version ← bits 2
    return version
  match version.toNat with
  | 0b00 => .ok .None
  | 0b01 => do
    let (cs, fa, sa, at_) ← BP.head eccDwords mode2Only slice
    let cs ← EccControlAndStatus.ofU32 cs
    return .Mode2Only cs fa sa at_
  | 0b10 => do
    let (cs, fa, sa, at_) ← BP.head eccDwords mode1OrMode2 slice
    let cs ← EccControlAndStatus.ofU32 cs
    return .Mode1OrMode2 cs fa sa at_
  | 0b11 => .ok .Reserved
  | _ => .panic

/-- src/capabilities/pci_x.rs:189-237 -/
def PciX.ofBytes (slice : Bytes) : Res PciXError PciX := do
  let ((command, status), slice) ← BP.seq (do
    let command ← le16
    let status ← le32
    return (command, status)) .CommandAndStatus slice
  let ecc ← eccRegisters .EccMode2Only .EccMode1OrMode2 command slice
  return { command := Command.ofU16 command, status := Status.ofU32 status, ecc := ecc }

/-- src/capabilities/pci_x.rs:580-647 -/
def PciXBridge.ofBytes (slice : Bytes) : Res PciXBridgeError PciXBridge := do
  let ((secondary_status, bridge_status, up_cap, up_lim, down_cap, down_lim), slice) ← BP.seq (do
    let secondary_status ← le16
    let bridge_status ← le32
    let up_cap ← le16
    let up_lim ← le16
    let down_cap ← le16
    let down_lim ← le16
    return (secondary_status, bridge_status, up_cap, up_lim, down_cap, down_lim)) .Mandatory slice
  let ecc ← eccRegisters .BridgeEccMode2Only .BridgeEccMode1OrMode2 secondary_status slice
  let secondary_status ← SecondaryStatus.ofU16 secondary_status
  return {
    secondary_status := secondary_status
    bridge_status := BridgeStatus.ofU32 bridge_status
    upstream_split_transaction_control := ⟨up_cap, up_lim⟩
    downstream_split_transaction_control := ⟨down_cap, down_lim⟩
    ecc := ecc }

end Pcics.PciX
