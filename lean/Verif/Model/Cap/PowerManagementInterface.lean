import Verif.Model.Common
/- Model of src/capabilities/power_management_interface.rs -/

namespace Pcics.PowerManagementInterface

/-- src/capabilities/power_management_interface.rs:185-202 -/
inductive AuxCurrent where
  | SelfPowered
  | MaxCurrent55mA
  | MaxCurrent100mA
  | MaxCurrent160mA
  | MaxCurrent220mA
  | MaxCurrent270mA
  | MaxCurrent320mA
  | MaxCurrent375mA
  deriving DecidableEq, Repr

/-- src/capabilities/power_management_interface.rs:221-232 -/
structure PmeSupport where
  d0 : Bool
  d1 : Bool
  d2 : Bool
  d3_hot : Bool
  d3_cold : Bool
  deriving DecidableEq, Repr

/-- src/capabilities/power_management_interface.rs:162-180 -/
structure Capabilities where
  version : U8
  pme_clock : Bool
  immediate_readiness_on_return_to_d0 : Bool
  device_specific_initialization : Bool
  aux_current : AuxCurrent
  d1_support : Bool
  d2_support : Bool
  pme_support : PmeSupport
  deriving DecidableEq, Repr

/-- src/capabilities/power_management_interface.rs:252-257 -/
inductive PowerState where
  | D0
  | D1
  | D2
  | D3Hot
  deriving DecidableEq, Repr

/-- src/capabilities/power_management_interface.rs:297-318 -/
inductive DataSelect where
  | PowerConsumedD0
  | PowerConsumedD1
  | PowerConsumedD2
  | PowerConsumedD3
  | PowerDissipatedD0
  | PowerDissipatedD1
  | PowerDissipatedD2
  | PowerDissipatedD3
  | CommonLogic
  | Reserved (v : U8)
  deriving DecidableEq, Repr

/-- src/capabilities/power_management_interface.rs:354-362 -/
inductive DataScale where
  | Unknown
  | Tenth
  | Hundredth
  | Thousandth
  deriving DecidableEq, Repr

/-- src/capabilities/power_management_interface.rs:236-248 -/
structure Control where
  power_state : PowerState
  no_soft_reset : Bool
  pme_enabled : Bool
  data_select : DataSelect
  data_scale : DataScale
  pme_status : Bool
  deriving DecidableEq, Repr

/-- src/capabilities/power_management_interface.rs:272-284 -/
structure Bridge where
  reserved : U8
  b2_b3 : Bool
  bpcc_enabled : Bool
  deriving DecidableEq, Repr

/-- src/capabilities/power_management_interface.rs:70-75 -/
structure PowerManagementInterface where
  capabilities : Capabilities
  control : Control
  bridge : Bridge
  data : U8
  deriving DecidableEq, Repr

/-- src/capabilities/power_management_interface.rs:203-217 -/
def AuxCurrent.ofU8 {ε : Type} (b : U8) : Res ε AuxCurrent :=
  match b.toNat with
  | 0 => .ok .SelfPowered
  | 1 => .ok .MaxCurrent55mA
  | 2 => .ok .MaxCurrent100mA
  | 3 => .ok .MaxCurrent160mA
  | 4 => .ok .MaxCurrent220mA
  | 5 => .ok .MaxCurrent270mA
  | 6 => .ok .MaxCurrent320mA
  | 7 => .ok .MaxCurrent375mA
  | _ => .panic

/-- src/capabilities/power_management_interface.rs:258-268 -/
def PowerState.ofU8 {ε : Type} (b : U8) : Res ε PowerState :=
  match b.toNat with
  | 0b00 => .ok .D0
  | 0b01 => .ok .D1
  | 0b10 => .ok .D2
  | 0b11 => .ok .D3Hot
  | _ => .panic

/-- src/capabilities/power_management_interface.rs:289-293 -/
structure Data where
  value : U8
  select : DataSelect
  scale : DataScale
  deriving DecidableEq, Repr

/-- src/capabilities/power_management_interface.rs:319-334 -/
def DataSelect.ofU8 (b : U8) : DataSelect :=
  match b.toNat with
  | 0 => .PowerConsumedD0
  | 1 => .PowerConsumedD1
  | 2 => .PowerConsumedD2
  | 3 => .PowerConsumedD3
  | 4 => .PowerDissipatedD0
  | 5 => .PowerDissipatedD1
  | 6 => .PowerDissipatedD2
  | 7 => .PowerDissipatedD3
  | 8 => .CommonLogic
  | _ => .Reserved b

/-- src/capabilities/power_management_interface.rs:335-350 -/
def DataSelect.toU8 : DataSelect → U8
  | .PowerConsumedD0 => 0
  | .PowerConsumedD1 => 1
  | .PowerConsumedD2 => 2
  | .PowerConsumedD3 => 3
  | .PowerDissipatedD0 => 4
  | .PowerDissipatedD1 => 5
  | .PowerDissipatedD2 => 6
  | .PowerDissipatedD3 => 7
  | .CommonLogic => 8
  | .Reserved v => v

/-- src/capabilities/power_management_interface.rs:363-373 -/
def DataScale.ofU8 {ε : Type} (b : U8) : Res ε DataScale :=
  match b.toNat with
  | 0b00 => .ok .Unknown
  | 0b01 => .ok .Tenth
  | 0b10 => .ok .Hundredth
  | 0b11 => .ok .Thousandth
  | _ => .panic

/-- src/capabilities/power_management_interface.rs:77-87 -/
def PowerManagementInterface.getData (s : PowerManagementInterface) : Option Data :=
  if s.data = 0 then none
  else some {
    value := s.data
    select := s.control.data_select
    scale := s.control.data_scale }

/-- src/capabilities/power_management_interface.rs:100-113, 126-141: the capabilities word. -/
def Capabilities.ofU16 {ε : Type} (w : U16) : Res ε Capabilities := runBits w do
  let version ← bits 3
  let pme_clock ← bit
  let immediate_readiness_on_return_to_d0 ← bit
  let device_specific_initialization ← bit
  let aux_current ← bits 3
  let d1_support ← bit
  let d2_support ← bit
  let d0 ← bit
  let d1 ← bit
  let d2 ← bit
  let d3_hot ← bit
  let d3_cold ← bit
  return do
    let aux_current ← AuxCurrent.ofU8 aux_current
    return {
      version := version
      pme_clock := pme_clock
      immediate_readiness_on_return_to_d0 := immediate_readiness_on_return_to_d0
      device_specific_initialization := device_specific_initialization
      aux_current := aux_current
      d1_support := d1_support
      d2_support := d2_support
      pme_support := { d0 := d0, d1 := d1, d2 := d2, d3_hot := d3_hot, d3_cold := d3_cold } }

/-- src/capabilities/power_management_interface.rs:114-123, 142-149: the control word. -/
def Control.ofU16 {ε : Type} (w : U16) : Res ε Control := runBits w do
  let power_state ← bits 2
  skip 1
  let no_soft_reset ← bit
  skip 4
  let pme_enabled ← bit
  let data_select ← bits 4
  let data_scale ← bits 2
  let pme_status ← bit
  return do
    let power_state ← PowerState.ofU8 power_state
    let data_scale ← DataScale.ofU8 data_scale
    return {
      power_state := power_state
      no_soft_reset := no_soft_reset
      pme_enabled := pme_enabled
      data_select := DataSelect.ofU8 data_select
      data_scale := data_scale
      pme_status := pme_status }

/-- src/capabilities/power_management_interface.rs:124, 150-154: the bridge extension byte. -/
def Bridge.ofU8 (w : U8) : Bridge := runBits w do
  let reserved ← bits 6
  let b2_b3 ← bit
  let bpcc_enabled ← bit
  return { reserved := reserved, b2_b3 := b2_b3, bpcc_enabled := bpcc_enabled }

/-- src/capabilities/power_management_interface.rs:92-157 -/
def PowerManagementInterface.ofBytes (slice : Bytes) :
    Res CapabilityDataError PowerManagementInterface := do
  let (capabilities, control, bridge, data) ← BP.head (do
    let capabilities ← le16
    let control ← le16
    let bridge ← le8
    let data ← le8
    return (capabilities, control, bridge, data))
    { name := "Power Management Interface", size := 6 } slice
  let capabilities ← Capabilities.ofU16 capabilities
  let control ← Control.ofU16 control
  return {
    capabilities := capabilities
    control := control
    bridge := Bridge.ofU8 bridge
    data := data }

end Pcics.PowerManagementInterface
