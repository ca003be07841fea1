import Verif.Model.Common
/- Model of the small fixed-size capabilities:
src/capabilities/{advanced_features,bridge_subsystem_vendor_id,debug_port,sata,
slot_identification,vital_product_data}.rs -/

namespace Pcics

/-- src/capabilities/advanced_features.rs:83-89 -/
structure AdvancedFeatures.Capabilities where
  transactions_pending : Bool
  function_level_reset : Bool
  deriving DecidableEq, Repr

/-- src/capabilities/advanced_features.rs:93-97 -/
structure AdvancedFeatures.Control where
  initiate_flr : Bool
  deriving DecidableEq, Repr

/-- src/capabilities/advanced_features.rs:101-105 -/
structure AdvancedFeatures.Status where
  transactions_pending : Bool
  deriving DecidableEq, Repr

/-- src/capabilities/advanced_features.rs:46-52 -/
structure AdvancedFeatures where
  length : U8
  capabilities : AdvancedFeatures.Capabilities
  control : AdvancedFeatures.Control
  status : AdvancedFeatures.Status
  deriving DecidableEq, Repr

/-- src/capabilities/advanced_features.rs:56-78 -/
def AdvancedFeatures.ofBytes (slice : Bytes) : Res CapabilityDataError AdvancedFeatures := do
  let (length, capabilities, control, status) ← BP.head (do
    let length ← le8
    let capabilities ← le8
    let control ← le8
    let status ← le8
    return (length, capabilities, control, status)) { name := "Advanced Features", size := 4 } slice
  let (cap_tp, function_level_reset) := runBits capabilities do
    let cap_tp ← bit
    let function_level_reset ← bit
    skip 6
    return (cap_tp, function_level_reset)
  let initiate_flr := runBits control do
    let initiate_flr ← bit
    skip 7
    return initiate_flr
  let st_tp := runBits status do
    let st_tp ← bit
    skip 7
    return st_tp
  return {
    length := length
    capabilities := {
      transactions_pending := cap_tp
      function_level_reset := function_level_reset }
    control := { initiate_flr := initiate_flr }
    status := { transactions_pending := st_tp } }

/-- src/capabilities/bridge_subsystem_vendor_id.rs:23-29 -/
structure BridgeSubsystemVendorId where
  reserved : U16
  subsystem_vendor_id : U16
  subsystem_id : U16
  deriving DecidableEq, Repr

/-- src/capabilities/bridge_subsystem_vendor_id.rs:31 -/
def BridgeSubsystemVendorId.SIZE : Nat := 2 + 2 + 2

/-- src/capabilities/bridge_subsystem_vendor_id.rs:34-43 -/
def BridgeSubsystemVendorId.ofArray {ε : Type} (bytes : Bytes) : Res ε BridgeSubsystemVendorId :=
  BP.arr (do
    let reserved ← le16
    let subsystem_vendor_id ← le16
    let subsystem_id ← le16
    return {
      reserved := reserved
      subsystem_vendor_id := subsystem_vendor_id
      subsystem_id := subsystem_id }) bytes

/-- src/capabilities/bridge_subsystem_vendor_id.rs:46-55 -/
def BridgeSubsystemVendorId.ofBytes (slice : Bytes) :
    Res CapabilityDataError BridgeSubsystemVendorId := do
  let a ← Res.okOr { name := "Bridge Subsystem Vendor ID", size := SIZE } (getTo slice SIZE)
  BridgeSubsystemVendorId.ofArray a

/-- src/capabilities/debug_port.rs:22-28 -/
structure DebugPort where
  offset : U16
  bar_number : U8
  deriving DecidableEq, Repr

/-- src/capabilities/debug_port.rs:32-42 -/
def DebugPort.ofBytes (slice : Bytes) : Res CapabilityDataError DebugPort := do
  let head ← BP.head le16 { name := "Debug port", size := 2 } slice
  return {
    offset := head &&& 0x1fff#16
    bar_number := (head >>> 13).setWidth 8 }

/-- src/capabilities/sata.rs:65-70 -/
structure Sata.Revision where
  minor : U8
  major : U8
  deriving DecidableEq, Repr

/-- src/capabilities/sata.rs:75-93 -/
inductive Sata.BarLocation where
  | Bar0
  | Bar1
  | Bar2
  | Bar3
  | Bar4
  | Bar5
  | SataCapability1
  | Reserved (v : U8)
  deriving DecidableEq, Repr

/-- src/capabilities/sata.rs:94-107 -/
def Sata.BarLocation.ofU8 (b : U8) : Sata.BarLocation :=
  match b.toNat with
  | 0b0100 => .Bar0
  | 0b0101 => .Bar1
  | 0b0110 => .Bar2
  | 0b0111 => .Bar3
  | 0b1000 => .Bar4
  | 0b1001 => .Bar5
  | 0b1111 => .SataCapability1
  | _ => .Reserved b

/-- src/capabilities/sata.rs:114 -/
structure Sata.BarOffset where
  val : U32
  deriving DecidableEq, Repr

/-- src/capabilities/sata.rs:116-118: multiplication panics on overflow. -/
def Sata.BarOffset.value {ε : Type} (s : Sata.BarOffset) : Res ε U32 :=
  if s.val.toNat * 4 < 2 ^ 32 then .ok (s.val * 4#32) else .panic

/-- src/capabilities/sata.rs:35-41 -/
structure Sata where
  revision : Sata.Revision
  bar_offset : Sata.BarOffset
  bar_location : Sata.BarLocation
  deriving DecidableEq, Repr

/-- src/capabilities/sata.rs:45-61 -/
def Sata.ofBytes (slice : Bytes) : Res CapabilityDataError Sata := do
  let (revision, sata_cap1) ← BP.head (do
    let revision ← le8
    let _rsvd ← le8
    let sata_cap1 ← le32
    return (revision, sata_cap1)) { name := "Serial ATA", size := 6 } slice
  let (minor, major) := runBits revision do
    let minor ← bits 4
    let major ← bits 4
    return ((minor : U8), (major : U8))
  let (bar_location, bar_offset) := runBits sata_cap1 do
    let bar_location ← bits 4
    let bar_offset ← bits 20
    skip 8
    return ((bar_location : U8), (bar_offset : U32))
  return {
    revision := { minor := minor, major := major }
    bar_offset := { val := bar_offset }
    bar_location := .ofU8 bar_location }

/-- src/capabilities/slot_identification.rs:67-72 -/
structure SlotIdentification.ExpansionSlot where
  expansion_slots_provided : U8
  first_in_chassis : Bool
  deriving DecidableEq, Repr

/-- src/capabilities/slot_identification.rs:35-39 -/
structure SlotIdentification where
  expansion_slot : SlotIdentification.ExpansionSlot
  chassis_number : U8
  deriving DecidableEq, Repr

/-- src/capabilities/slot_identification.rs:43-61 -/
def SlotIdentification.ofBytes (slice : Bytes) : Res CapabilityDataError SlotIdentification := do
  let (expansion_slot, chassis_number) ← BP.head (do
    let expansion_slot ← le8
    let chassis_number ← le8
    return (expansion_slot, chassis_number)) { name := "Slot Identification", size := 2 } slice
  let (expansion_slots_provided, first_in_chassis) := runBits expansion_slot do
    let expansion_slots_provided ← bits 5
    let first_in_chassis ← bit
    skip 2
    return ((expansion_slots_provided : U8), first_in_chassis)
  return {
    expansion_slot := {
      expansion_slots_provided := expansion_slots_provided
      first_in_chassis := first_in_chassis }
    chassis_number := chassis_number }

/-- src/capabilities/vital_product_data.rs:31-39 -/
structure VitalProductData where
  vpd_address : U16
  transfer_completed : Bool
  vpd_data : U32
  deriving DecidableEq, Repr

/-- src/capabilities/vital_product_data.rs:43-57 -/
def VitalProductData.ofBytes (slice : Bytes) : Res CapabilityDataError VitalProductData := do
  let (word, vpd_data) ← BP.head (do
    let word ← le16
    let vpd_data ← le32
    return (word, vpd_data)) { name := "Vital Product Data", size := 6 } slice
  let (vpd_address, transfer_completed) := runBits word do
    let vpd_address ← bits 15
    let transfer_completed ← bit
    return ((vpd_address : U16), transfer_completed)
  return {
    vpd_address := vpd_address
    transfer_completed := transfer_completed
    vpd_data := vpd_data }

end Pcics
