import Verif.Model.Common
/- Model of src/capabilities/msi_x.rs -/

namespace Pcics.MsiX

/-- src/capabilities/msi_x.rs:52-59 -/
structure MessageControl where
  table_size : U16
  function_mask : Bool
  msi_x_enable : Bool
  deriving DecidableEq, Repr

/-- src/capabilities/msi_x.rs:74-82 -/
inductive Bir where
  | Bar10h
  | Bar14h
  | Bar18h
  | Bar1Ch
  | Bar20h
  | Bar24h
  | Reserved (v : U8)
  deriving DecidableEq, Repr

/-- src/capabilities/msi_x.rs:99-104 -/
structure Table where
  bir : Bir
  offset : U32
  deriving DecidableEq, Repr

/-- src/capabilities/msi_x.rs:118-123 -/
structure PendingBitArray where
  bir : Bir
  offset : U32
  deriving DecidableEq, Repr

/-- src/capabilities/msi_x.rs:18-22 -/
structure MsiX where
  message_control : MessageControl
  table : Table
  pending_bit_array : PendingBitArray
  deriving DecidableEq, Repr

/-- src/capabilities/msi_x.rs:60-69 -/
def MessageControl.ofU16 (w : U16) : MessageControl := runBits w do
  let table_size ← bits 11
  skip 3
  let function_mask ← bit
  let msi_x_enable ← bit
  return {
    table_size := table_size, function_mask := function_mask, msi_x_enable := msi_x_enable }

/-- src/capabilities/msi_x.rs:83-95 -/
def Bir.ofU8 (b : U8) : Bir :=
  match b.toNat with
  | 0 => .Bar10h
  | 1 => .Bar14h
  | 2 => .Bar18h
  | 3 => .Bar1Ch
  | 4 => .Bar20h
  | 5 => .Bar24h
  | _ => .Reserved b

/-- src/capabilities/msi_x.rs:105-114 -/
def Table.ofU32 (w : U32) : Table := runBits w do
  let bir ← bits 3
  let offset ← bits 29
  return { bir := Bir.ofU8 bir, offset := offset <<< 3 }

/-- src/capabilities/msi_x.rs:124-133 -/
def PendingBitArray.ofU32 (w : U32) : PendingBitArray := runBits w do
  let bir ← bits 3
  let offset ← bits 29
  return { bir := Bir.ofU8 bir, offset := offset <<< 3 }

/-- src/capabilities/msi_x.rs:24 -/
def MsiX.SIZE : Nat := 2 + 4 + 4

/-- src/capabilities/msi_x.rs:26-35 -/
def MsiX.ofArray {ε : Type} (bytes : Bytes) : Res ε MsiX := BP.arr (do
  let mc ← le16
  let t ← le32
  let pba ← le32
  return {
    message_control := MessageControl.ofU16 mc
    table := Table.ofU32 t
    pending_bit_array := PendingBitArray.ofU32 pba }) bytes

/-- src/capabilities/msi_x.rs:38-47 -/
def MsiX.ofBytes (slice : Bytes) : Res CapabilityDataError MsiX := do
  let a ← Res.okOr { name := "MSI-X", size := SIZE } (getTo slice SIZE)
  MsiX.ofArray a

end Pcics.MsiX
