import Verif.Model.Common
/- Model of src/capabilities/message_signaled_interrups.rs -/

namespace Pcics.MessageSignaledInterrups

/-- src/capabilities/message_signaled_interrups.rs:192-192 -/
structure MultipleMessage where
  val : U8
  deriving DecidableEq, Repr

/-- src/capabilities/message_signaled_interrups.rs:164-172 -/
structure MessageControl where
  msi_enable : Bool
  multiple_message_capable : MultipleMessage
  multiple_message_enable : MultipleMessage
  a_64_bit_address_capable : Bool
  per_vector_masking_capable : Bool
  extended_message_data_capable : Bool
  extended_message_data_enable : Bool
  deriving DecidableEq, Repr

/-- src/capabilities/message_signaled_interrups.rs:23-29 -/
inductive MessageSignaledInterrupsError where
  | MessageControl
  | Size32bit
  | Size64bit
  | Size32bitPerVector
  | Size64bitPerVector
  deriving DecidableEq, Repr

/-- src/capabilities/message_signaled_interrups.rs:179-182 -/
inductive MessageAddress where
  | Dword (v : U32)
  | Qword (v : U64)
  deriving DecidableEq, Repr

/-- src/capabilities/message_signaled_interrups.rs:36-48 -/
structure MessageSignaledInterrups where
  message_control : MessageControl
  message_address : MessageAddress
  message_data : U16
  extended_message_data : U16
  mask_bits : Option U32
  pending_bits : Option U32
  deriving DecidableEq, Repr

/-- src/capabilities/message_signaled_interrups.rs:174 -/
def MessageControl.SIZE : Nat := 2
/-- src/capabilities/message_signaled_interrups.rs:13 -/
def MSI_32BIT_SIZE : Nat := 2 + 4 + 2 + 2
/-- src/capabilities/message_signaled_interrups.rs:15 -/
def MSI_64BIT_SIZE : Nat := 2 + 4 + 4 + 2 + 2
/-- src/capabilities/message_signaled_interrups.rs:17 -/
def MSI_32BIT_PVM_SIZE : Nat := 2 + 4 + 2 + 2 + 4 + 4
/-- src/capabilities/message_signaled_interrups.rs:19 -/
def MSI_64BIT_PVM_SIZE : Nat := 2 + 4 + 4 + 2 + 2 + 4 + 4

/-- src/capabilities/message_signaled_interrups.rs:59-77 -/
def MessageControl.ofU16 (mc : U16) : MessageControl := runBits mc do
  let msi_enable ← bit
  let mmc ← bits 3
  let mme ← bits 3
  let a_64_bit_address_capable ← bit
  let per_vector_masking_capable ← bit
  let extended_message_data_capable ← bit
  let extended_message_data_enable ← bit
  skip 5
  return {
    msi_enable := msi_enable
    multiple_message_capable := ⟨mmc⟩
    multiple_message_enable := ⟨mme⟩
    a_64_bit_address_capable := a_64_bit_address_capable
    per_vector_masking_capable := per_vector_masking_capable
    extended_message_data_capable := extended_message_data_capable
    extended_message_data_enable := extended_message_data_enable }

/-- src/capabilities/message_signaled_interrups.rs:51-159 -/
def MessageSignaledInterrups.ofBytes (slice : Bytes) :
    Res MessageSignaledInterrupsError MessageSignaledInterrups := do
  let mc ← Res.okOr .MessageControl (getTo slice MessageControl.SIZE)
  let mc ← BP.arr le16 mc
  let message_control := MessageControl.ofU16 mc
  match message_control.a_64_bit_address_capable, message_control.per_vector_masking_capable with
  | false, false =>
    let s ← Res.okOr .Size32bit (getRange slice MessageControl.SIZE MSI_32BIT_SIZE)
    BP.arr (do
      let addr ← le32
      let message_data ← le16
      let extended_message_data ← le16
      return {
        message_control := message_control
        message_address := .Dword addr
        message_data := message_data
        extended_message_data := extended_message_data
        mask_bits := none
        pending_bits := none }) s
  | true, false =>
    let s ← Res.okOr .Size64bit (getRange slice MessageControl.SIZE MSI_64BIT_SIZE)
    BP.arr (do
      let addr_lo ← le32
      let addr_hi ← le32
      let message_data ← le16
      let extended_message_data ← le16
      return {
        message_control := message_control
        message_address := .Qword ((addr_hi.setWidth 64 <<< 32) ||| addr_lo.setWidth 64)
        message_data := message_data
        extended_message_data := extended_message_data
        mask_bits := none
        pending_bits := none }) s
  | false, true =>
    let s ← Res.okOr .Size32bitPerVector (getRange slice MessageControl.SIZE MSI_32BIT_PVM_SIZE)
    BP.arr (do
      let addr ← le32
      let message_data ← le16
      let extended_message_data ← le16
      let mb ← le32
      let pb ← le32
      return {
        message_control := message_control
        message_address := .Dword addr
        message_data := message_data
        extended_message_data := extended_message_data
        mask_bits := some mb
        pending_bits := some pb }) s
  | true, true =>
    let s ← Res.okOr .Size64bitPerVector (getRange slice MessageControl.SIZE MSI_64BIT_PVM_SIZE)
    BP.arr (do
      let addr_lo ← le32
      let addr_hi ← le32
      let message_data ← le16
      let extended_message_data ← le16
      let mb ← le32
      let pb ← le32
      return {
        message_control := message_control
        message_address := .Qword ((addr_hi.setWidth 64 <<< 32) ||| addr_lo.setWidth 64)
        message_data := message_data
        extended_message_data := extended_message_data
        mask_bits := some mb
        pending_bits := some pb }) s

/-- src/capabilities/message_signaled_interrups.rs:194-196: `1u8 << n` panics for `n >= 8`. -/
def MultipleMessage.number_of_vectors {ε : Type} (s : MultipleMessage) : Res ε U8 :=
  if s.val.toNat < 8 then .ok (1#8 <<< s.val.toNat) else .panic

end Pcics.MessageSignaledInterrups
