import Verif.Model.Common
/- Model of src/extended_capabilities/tph_requester.rs -/

namespace Pcics.TphRequester

/-- src/extended_capabilities/tph_requester.rs:134-147 -/
inductive StTable where
  | NotPresent
  | Valid (size : U16) (data : Bytes)
  | Invalid (size : U16) (data : Bytes)
  | MsiXTable (size : U16)
  | Reserved
  deriving DecidableEq, Repr

/-- src/extended_capabilities/tph_requester.rs:119-130 -/
structure TphRequesterCapability where
  no_st_mode_supported : Bool
  interrupt_vector_mode_supported : Bool
  device_specific_mode_supported : Bool
  extended_tph_requester_supported : Bool
  st_table : StTable
  deriving DecidableEq, Repr

/-- src/extended_capabilities/tph_requester.rs:178-187 -/
inductive StModeSelect where
  | NoStMode
  | InterruptVectorMode
  | DeviceSpecificMode
  | Reserved (v : U8)
  deriving DecidableEq, Repr

/-- src/extended_capabilities/tph_requester.rs:201-212 -/
inductive TphRequesterEnable where
  | NotPermitted
  | TphPermitted
  | Reserved
  | TphAndExtendedTphPermitted
  deriving DecidableEq, Repr

/-- src/extended_capabilities/tph_requester.rs:158-163 -/
structure TphRequesterControl where
  st_mode_select : StModeSelect
  tph_requester_enable : TphRequesterEnable
  deriving DecidableEq, Repr

/-- src/extended_capabilities/tph_requester.rs:49-54 -/
structure TphRequester where
  tph_requester_capability : TphRequesterCapability
  tph_requester_control : TphRequesterControl
  deriving DecidableEq, Repr

/-- src/extended_capabilities/tph_requester.rs:151-154 -/
structure TphStTableEntry where
  st_lower : U8
  st_upper : U8
  deriving DecidableEq, Repr

/-- src/extended_capabilities/tph_requester.rs:213-223 -/
def TphRequesterEnable.ofU8 {ε : Type} (b : U8) : Res ε TphRequesterEnable :=
  match b.toNat with
  | 0b00 => .ok .NotPermitted
  | 0b01 => .ok .TphPermitted
  | 0b10 => .ok .Reserved
  | 0b11 => .ok .TphAndExtendedTphPermitted
  | _ => .panic

/-- src/extended_capabilities/tph_requester.rs:188-197 -/
def StModeSelect.ofU8 (b : U8) : StModeSelect :=
  match b.toNat with
  | 0b00 => .NoStMode
  | 0b01 => .InterruptVectorMode
  | 0b10 => .DeviceSpecificMode
  | _ => .Reserved b

/-- src/extended_capabilities/tph_requester.rs:165-174 -/
def TphRequesterControl.ofU32 {ε : Type} (w : U32) : Res ε TphRequesterControl := runBits w do
  let st_mode_select ← bits 3
  skip 5
  let tph_requester_enable ← bits 2
  skip 22
  return do
    let tph_requester_enable ← TphRequesterEnable.ofU8 tph_requester_enable
    return {
      st_mode_select := StModeSelect.ofU8 st_mode_select,
      tph_requester_enable := tph_requester_enable }

/-- src/extended_capabilities/tph_requester.rs:80-104: the match on the ST table location.
`unreachable!()` is a panic. -/
def StTable.new {ε : Type} (st_table_location : U8) (st_table_size : U16) (tail : Bytes) :
    Res ε StTable :=
  let «end» := st_table_size.toNat * 2 + 2
  match st_table_location.toNat with
  | 0b00 => .ok .NotPresent
  | 0b01 =>
    match decide (st_table_size.toNat ≤ 63), getTo tail «end» with
    | true, some data => .ok (.Valid st_table_size data)
    | _, _ => .ok (.Invalid st_table_size tail)
  | 0b10 => .ok (.MsiXTable st_table_size)
  | 0b11 => .ok .Reserved
  | _ => .panic

/-- src/extended_capabilities/tph_requester.rs:56-116 -/
def TphRequester.ofBytes (slice : Bytes) : Res ExtendedCapabilityDataError TphRequester := do
  let ((tph_requester_capability, tph_requester_control), tail) ← BP.seq (do
    let tph_requester_capability ← le32
    let tph_requester_control ← le32
    return (tph_requester_capability, tph_requester_control))
    { name := "TPH Requester", size := 8 } slice
  let (no_st, iv, ds, ext, st_table_location, st_table_size) :
      Bool × Bool × Bool × Bool × U8 × U16 := runBits tph_requester_capability do
    let no_st ← bit
    let iv ← bit
    let ds ← bit
    skip 5
    let ext ← bit
    let st_table_location ← bits 2
    skip 5
    let st_table_size ← bits 11
    skip 5
    return (no_st, iv, ds, ext, st_table_location, st_table_size)
  let st_table ← StTable.new st_table_location st_table_size tail
  let tph_requester_control ← TphRequesterControl.ofU32 tph_requester_control
  return {
    tph_requester_capability := {
      no_st_mode_supported := no_st, interrupt_vector_mode_supported := iv,
      device_specific_mode_supported := ds, extended_tph_requester_supported := ext,
      st_table := st_table },
    tph_requester_control := tph_requester_control }

end Pcics.TphRequester
