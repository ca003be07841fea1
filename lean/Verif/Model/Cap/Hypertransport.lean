import Verif.Model.Common
/- Model of src/capabilities/hypertransport.rs -/

namespace Pcics.Hypertransport

/-- src/capabilities/hypertransport.rs:287-298 -/
structure SlaveOrPrimaryCommand where
  base_unitid : U8
  unit_count : U8
  master_host : Bool
  default_direction : Bool
  drop_on_uninitialized_link : Bool
  deriving DecidableEq, Repr

/-- src/capabilities/hypertransport.rs:321-348 -/
structure LinkControl where
  source_id_enable : Bool
  crc_flood_enable : Bool
  crc_start_test : Bool
  crc_force_error : Bool
  link_failure : Bool
  initialization_complete : Bool
  end_of_chain : Bool
  transmitter_off : Bool
  crc_error : U8
  isochronous_flow_control_enable : Bool
  ldtstop_tristate_enable : Bool
  extended_ctl_time : Bool
  enable_64_bit_addressing : Bool
  deriving DecidableEq, Repr

/-- src/capabilities/hypertransport.rs:433-448 -/
inductive LinkWidth where
  | Width8bits
  | Width16bits
  | Width32bits
  | Width2bits
  | Width4bits
  | NotConnected
  | Reserved (v : U8)
  deriving DecidableEq, Repr

/-- src/capabilities/hypertransport.rs:386-403 -/
structure LinkConfiguration where
  max_link_width_in : LinkWidth
  doubleword_flow_control_in : Bool
  max_link_width_out : LinkWidth
  doubleword_flow_control_out : Bool
  link_width_in : LinkWidth
  doubleword_flow_control_in_enable : Bool
  link_width_out : LinkWidth
  doubleword_flow_control_out_enable : Bool
  deriving DecidableEq, Repr

/-- src/capabilities/hypertransport.rs:469-472 -/
structure RevisionId where
  minor : U8
  major : U8
  deriving DecidableEq, Repr

/-- src/capabilities/hypertransport.rs:548-557 -/
structure LinkError where
  protocol_error : Bool
  overflow_error : Bool
  end_of_chain_error : Bool
  ctl_timeout : Bool
  deriving DecidableEq, Repr

/-- src/capabilities/hypertransport.rs:560-577 -/
structure LinkFrequencyCapability where
  supports_200mhz : Bool
  supports_300mhz : Bool
  supports_400mhz : Bool
  supports_500mhz : Bool
  supports_600mhz : Bool
  supports_800mhz : Bool
  supports_1000mhz : Bool
  supports_1200mhz : Bool
  supports_1400mhz : Bool
  supports_1600mhz : Bool
  supports_1800mhz : Bool
  supports_2000mhz : Bool
  supports_2200mhz : Bool
  supports_2400mhz : Bool
  supports_2600mhz : Bool
  supports_vendor_specific : Bool
  deriving DecidableEq, Repr

/-- src/capabilities/hypertransport.rs:621-640 -/
structure FeatureCapability where
  isochronous_flow_control_mode : Bool
  ldtstop : Bool
  crc_test_mode : Bool
  extended_ctl_time_required : Bool
  qword_addressing : Bool
  unitid_reorder_disable : Bool
  source_identification_extension : Bool
  extended_register_set : Bool
  upstream_configuration_enable : Bool
  deriving DecidableEq, Repr

/-- src/capabilities/hypertransport.rs:672-705 -/
structure ErrorHandling where
  protocol_error_flood_enable : Bool
  overflow_error_flood_enable : Bool
  protocol_error_fatal_enable : Bool
  overflow_error_fatal_enable : Bool
  end_of_chain_error_fatal_enable : Bool
  response_error_fatal_enable : Bool
  crc_error_fatal_enable : Bool
  system_error_fatal_enable : Bool
  chain_fail : Bool
  response_error : Bool
  protocol_error_nonfatal_enable : Bool
  overflow_error_nonfatal_enable : Bool
  end_of_chain_error_nonfatal_enable : Bool
  response_error_nonfatal_enable : Bool
  crc_error_nonfatal_enable : Bool
  system_error_nonfatal_enable : Bool
  deriving DecidableEq, Repr

/-- src/capabilities/hypertransport.rs:178-215 -/
structure SlaveOrPrimaryInterface where
  command : SlaveOrPrimaryCommand
  link_control_0 : LinkControl
  link_config_0 : LinkConfiguration
  link_control_1 : LinkControl
  link_config_1 : LinkConfiguration
  revision_id : RevisionId
  link_freq_0 : U8
  link_error_0 : LinkError
  link_freq_cap_0 : LinkFrequencyCapability
  feature : FeatureCapability
  link_freq_1 : U8
  link_error_1 : LinkError
  link_freq_cap_1 : LinkFrequencyCapability
  enumeration_scratchpad : U16
  error_handling : ErrorHandling
  mem_base_upper : U8
  mem_limit_upper : U8
  bus_number : U8
  deriving DecidableEq, Repr

/-- src/capabilities/hypertransport.rs:827-844 -/
structure HostOrSecondaryCommand where
  warm_reset : Bool
  double_ended : Bool
  device_number : U8
  chain_side : Bool
  host_hide : Bool
  act_as_slave : Bool
  host_inbound_end_of_chain_error : Bool
  drop_on_uninitialized_link : Bool
  deriving DecidableEq, Repr

/-- src/capabilities/hypertransport.rs:750-775 -/
structure HostOrSecondaryInterface where
  command : HostOrSecondaryCommand
  link_control : LinkControl
  link_config : LinkConfiguration
  revision_id : RevisionId
  link_freq : U8
  link_error : LinkError
  link_freq_cap : LinkFrequencyCapability
  feature : FeatureCapability
  enumeration_scratchpad : U16
  error_handling : ErrorHandling
  mem_base_upper : U8
  mem_limit_upper : U8
  deriving DecidableEq, Repr

/-- src/capabilities/hypertransport.rs:874-874 -/
structure Switch where
  deriving DecidableEq, Repr

/-- src/capabilities/hypertransport.rs:877-877 -/
structure ReservedHost where
  deriving DecidableEq, Repr

/-- src/capabilities/hypertransport.rs:880-880 -/
structure InterruptDiscoveryAndConfiguration where
  deriving DecidableEq, Repr

/-- src/capabilities/hypertransport.rs:883-883 -/
structure UnitIdClumping where
  deriving DecidableEq, Repr

/-- src/capabilities/hypertransport.rs:886-886 -/
structure ExtendedConfigurationSpaceAccess where
  deriving DecidableEq, Repr

/-- src/capabilities/hypertransport.rs:889-889 -/
structure AddressMapping where
  deriving DecidableEq, Repr

/-- src/capabilities/hypertransport.rs:893-904 -/
structure MsiMapping where
  enabled : Bool
  fixed : Bool
  base_address_lower : U32
  base_address_upper : U32
  deriving DecidableEq, Repr

/-- src/capabilities/hypertransport.rs:927-927 -/
structure DirectRoute where
  deriving DecidableEq, Repr

/-- src/capabilities/hypertransport.rs:930-930 -/
structure VCSet where
  deriving DecidableEq, Repr

/-- src/capabilities/hypertransport.rs:936-936 -/
structure X86Encoding where
  deriving DecidableEq, Repr

/-- src/capabilities/hypertransport.rs:939-939 -/
structure Gen3 where
  deriving DecidableEq, Repr

/-- src/capabilities/hypertransport.rs:942-942 -/
structure FunctionLevelExtension where
  deriving DecidableEq, Repr

/-- src/capabilities/hypertransport.rs:945-945 -/
structure PowerManagement where
  deriving DecidableEq, Repr

/-- src/capabilities/hypertransport.rs:948-948 -/
structure HighNodeCount where
  deriving DecidableEq, Repr

/-- src/capabilities/hypertransport.rs:31-50 -/
inductive HypertransportError where
  | CapabilityType
  | SlaveOrPrimaryInterface
  | HostOrSecondaryInterface
  | Switch
  | ReservedHost
  | InterruptDiscoveryAndConfiguration
  | RevisionId
  | UnitIdClumping
  | ExtendedConfigurationSpaceAccess
  | AddressMapping
  | MsiMapping
  | DirectRoute
  | VCSet
  | X86Encoding
  | Gen3
  | FunctionLevelExtension
  | PowerManagement
  | HighNodeCount
  deriving DecidableEq, Repr

/-- src/capabilities/hypertransport.rs:933-933 -/
structure RetryMode where
  deriving DecidableEq, Repr

/-- src/capabilities/hypertransport.rs:55-94 -/
inductive Hypertransport where
  | SlaveOrPrimaryInterface (v : SlaveOrPrimaryInterface)
  | HostOrSecondaryInterface (v : HostOrSecondaryInterface)
  | Switch (v : Switch)
  | ReservedHost (v : ReservedHost)
  | InterruptDiscoveryAndConfiguration (v : InterruptDiscoveryAndConfiguration)
  | RevisionId (v : RevisionId)
  | UnitIdClumping (v : UnitIdClumping)
  | ExtendedConfigurationSpaceAccess (v : ExtendedConfigurationSpaceAccess)
  | AddressMapping (v : AddressMapping)
  | MsiMapping (v : MsiMapping)
  | DirectRoute (v : DirectRoute)
  | VCSet (v : VCSet)
  | RetryMode (v : RetryMode)
  | X86Encoding (v : X86Encoding)
  | Gen3 (v : Gen3)
  | FunctionLevelExtension (v : FunctionLevelExtension)
  | PowerManagement (v : PowerManagement)
  | HighNodeCount (v : HighNodeCount)
  | Reserved (v : U8)
  deriving DecidableEq, Repr

/-- src/capabilities/hypertransport.rs:150-174 -/
def Hypertransport.toU8 : Hypertransport → U8
  | .SlaveOrPrimaryInterface _ => 0b00000
  | .HostOrSecondaryInterface _ => 0b00100
  | .Switch _ => 0b01000
  | .ReservedHost _ => 0b01001
  | .InterruptDiscoveryAndConfiguration _ => 0b10000
  | .RevisionId _ => 0b10001
  | .UnitIdClumping _ => 0b10010
  | .ExtendedConfigurationSpaceAccess _ => 0b10011
  | .AddressMapping _ => 0b10100
  | .MsiMapping _ => 0b10101
  | .DirectRoute _ => 0b10110
  | .VCSet _ => 0b10111
  | .RetryMode _ => 0b11000
  | .X86Encoding _ => 0b11001
  | .Gen3 _ => 0b11010
  | .FunctionLevelExtension _ => 0b11011
  | .PowerManagement _ => 0b11100
  | .HighNodeCount _ => 0b11101
  | .Reserved v => v

/-- src/capabilities/hypertransport.rs:300-318 -/
def SlaveOrPrimaryCommand.ofU16 (w : U16) : SlaveOrPrimaryCommand := runBits w do
  let base_unitid ← bits 5
  let unit_count ← bits 5
  let master_host ← bit
  let default_direction ← bit
  let drop_on_uninitialized_link ← bit
  skip 3
  return {
    base_unitid := base_unitid, unit_count := unit_count, master_host := master_host,
    default_direction := default_direction,
    drop_on_uninitialized_link := drop_on_uninitialized_link }

/-- src/capabilities/hypertransport.rs:350-383 -/
def LinkControl.ofU16 (w : U16) : LinkControl := runBits w do
  let source_id_enable ← bit
  let crc_flood_enable ← bit
  let crc_start_test ← bit
  let crc_force_error ← bit
  let link_failure ← bit
  let initialization_complete ← bit
  let end_of_chain ← bit
  let transmitter_off ← bit
  let crc_error ← bits 4
  let isochronous_flow_control_enable ← bit
  let ldtstop_tristate_enable ← bit
  let extended_ctl_time ← bit
  let enable_64_bit_addressing ← bit
  return {
    source_id_enable := source_id_enable, crc_flood_enable := crc_flood_enable,
    crc_start_test := crc_start_test, crc_force_error := crc_force_error,
    link_failure := link_failure, initialization_complete := initialization_complete,
    end_of_chain := end_of_chain, transmitter_off := transmitter_off, crc_error := crc_error,
    isochronous_flow_control_enable := isochronous_flow_control_enable,
    ldtstop_tristate_enable := ldtstop_tristate_enable, extended_ctl_time := extended_ctl_time,
    enable_64_bit_addressing := enable_64_bit_addressing }

/-- src/capabilities/hypertransport.rs:449-461 -/
def LinkWidth.ofU8 (b : U8) : LinkWidth :=
  match b.toNat with
  | 0b000 => .Width8bits
  | 0b001 => .Width16bits
  | 0b011 => .Width32bits
  | 0b100 => .Width2bits
  | 0b101 => .Width4bits
  | 0b111 => .NotConnected
  | _ => .Reserved b

/-- src/capabilities/hypertransport.rs:405-428 -/
def LinkConfiguration.ofU16 (w : U16) : LinkConfiguration := runBits w do
  let max_link_width_in ← bits 3
  let doubleword_flow_control_in ← bit
  let max_link_width_out ← bits 3
  let doubleword_flow_control_out ← bit
  let link_width_in ← bits 3
  let doubleword_flow_control_in_enable ← bit
  let link_width_out ← bits 3
  let doubleword_flow_control_out_enable ← bit
  return {
    max_link_width_in := LinkWidth.ofU8 max_link_width_in,
    doubleword_flow_control_in := doubleword_flow_control_in,
    max_link_width_out := LinkWidth.ofU8 max_link_width_out,
    doubleword_flow_control_out := doubleword_flow_control_out,
    link_width_in := LinkWidth.ofU8 link_width_in,
    doubleword_flow_control_in_enable := doubleword_flow_control_in_enable,
    link_width_out := LinkWidth.ofU8 link_width_out,
    doubleword_flow_control_out_enable := doubleword_flow_control_out_enable }

/-- src/capabilities/hypertransport.rs:476-481 -/
def RevisionId.ofU8 (w : U8) : RevisionId := runBits w do
  let minor ← bits 5
  let major ← bits 3
  return { minor := minor, major := major }

/-- src/capabilities/hypertransport.rs:491-512 -/
inductive LinkFrequency where
  | Rate200MHz
  | Rate300MHz
  | Rate400MHz
  | Rate500MHz
  | Rate600MHz
  | Rate800MHz
  | Rate1000MHz
  | Rate1200MHz
  | Rate1400MHz
  | Rate1600MHz
  | Rate1800MHz
  | Rate2000MHz
  | Rate2200MHz
  | Rate2400MHz
  | Rate2600MHz
  | VendorSpecific
  | Rate2800MHz
  | Rate3000MHz
  | Rate3200MHz
  | Reserved (v : U8)
  deriving DecidableEq, Repr

/-- src/capabilities/hypertransport.rs:579-618 -/
def LinkFrequencyCapability.ofU16 (w : U16) : LinkFrequencyCapability := runBits w do
  let supports_200mhz ← bit
  let supports_300mhz ← bit
  let supports_400mhz ← bit
  let supports_500mhz ← bit
  let supports_600mhz ← bit
  let supports_800mhz ← bit
  let supports_1000mhz ← bit
  let supports_1200mhz ← bit
  let supports_1400mhz ← bit
  let supports_1600mhz ← bit
  let supports_1800mhz ← bit
  let supports_2000mhz ← bit
  let supports_2200mhz ← bit
  let supports_2400mhz ← bit
  let supports_2600mhz ← bit
  let supports_vendor_specific ← bit
  return {
    supports_200mhz := supports_200mhz, supports_300mhz := supports_300mhz,
    supports_400mhz := supports_400mhz, supports_500mhz := supports_500mhz,
    supports_600mhz := supports_600mhz, supports_800mhz := supports_800mhz,
    supports_1000mhz := supports_1000mhz, supports_1200mhz := supports_1200mhz,
    supports_1400mhz := supports_1400mhz, supports_1600mhz := supports_1600mhz,
    supports_1800mhz := supports_1800mhz, supports_2000mhz := supports_2000mhz,
    supports_2200mhz := supports_2200mhz, supports_2400mhz := supports_2400mhz,
    supports_2600mhz := supports_2600mhz, supports_vendor_specific := supports_vendor_specific }

/-- src/capabilities/hypertransport.rs:642-669 -/
def FeatureCapability.ofU16 (w : U16) : FeatureCapability := runBits w do
  let isochronous_flow_control_mode ← bit
  let ldtstop ← bit
  let crc_test_mode ← bit
  let extended_ctl_time_required ← bit
  let qword_addressing ← bit
  let unitid_reorder_disable ← bit
  let source_identification_extension ← bit
  skip 1
  let extended_register_set ← bit
  let upstream_configuration_enable ← bit
  skip 6
  return {
    isochronous_flow_control_mode := isochronous_flow_control_mode, ldtstop := ldtstop,
    crc_test_mode := crc_test_mode, extended_ctl_time_required := extended_ctl_time_required,
    qword_addressing := qword_addressing, unitid_reorder_disable := unitid_reorder_disable,
    source_identification_extension := source_identification_extension,
    extended_register_set := extended_register_set,
    upstream_configuration_enable := upstream_configuration_enable }

/-- src/capabilities/hypertransport.rs:707-746 -/
def ErrorHandling.ofU16 (w : U16) : ErrorHandling := runBits w do
  let protocol_error_flood_enable ← bit
  let overflow_error_flood_enable ← bit
  let protocol_error_fatal_enable ← bit
  let overflow_error_fatal_enable ← bit
  let end_of_chain_error_fatal_enable ← bit
  let response_error_fatal_enable ← bit
  let crc_error_fatal_enable ← bit
  let system_error_fatal_enable ← bit
  let chain_fail ← bit
  let response_error ← bit
  let protocol_error_nonfatal_enable ← bit
  let overflow_error_nonfatal_enable ← bit
  let end_of_chain_error_nonfatal_enable ← bit
  let response_error_nonfatal_enable ← bit
  let crc_error_nonfatal_enable ← bit
  let system_error_nonfatal_enable ← bit
  return {
    protocol_error_flood_enable := protocol_error_flood_enable,
    overflow_error_flood_enable := overflow_error_flood_enable,
    protocol_error_fatal_enable := protocol_error_fatal_enable,
    overflow_error_fatal_enable := overflow_error_fatal_enable,
    end_of_chain_error_fatal_enable := end_of_chain_error_fatal_enable,
    response_error_fatal_enable := response_error_fatal_enable,
    crc_error_fatal_enable := crc_error_fatal_enable,
    system_error_fatal_enable := system_error_fatal_enable, chain_fail := chain_fail,
    response_error := response_error,
    protocol_error_nonfatal_enable := protocol_error_nonfatal_enable,
    overflow_error_nonfatal_enable := overflow_error_nonfatal_enable,
    end_of_chain_error_nonfatal_enable := end_of_chain_error_nonfatal_enable,
    response_error_nonfatal_enable := response_error_nonfatal_enable,
    crc_error_nonfatal_enable := crc_error_nonfatal_enable,
    system_error_nonfatal_enable := system_error_nonfatal_enable }

/-- src/capabilities/hypertransport.rs:846-871 -/
def HostOrSecondaryCommand.ofU16 (w : U16) : HostOrSecondaryCommand := runBits w do
  let warm_reset ← bit
  let double_ended ← bit
  let device_number ← bits 5
  let chain_side ← bit
  let host_hide ← bit
  skip 1
  let act_as_slave ← bit
  let host_inbound_end_of_chain_error ← bit
  let drop_on_uninitialized_link ← bit
  skip 3
  return {
    warm_reset := warm_reset, double_ended := double_ended, device_number := device_number,
    chain_side := chain_side, host_hide := host_hide, act_as_slave := act_as_slave,
    host_inbound_end_of_chain_error := host_inbound_end_of_chain_error,
    drop_on_uninitialized_link := drop_on_uninitialized_link }

/-- src/capabilities/hypertransport.rs:482-486 -/
def RevisionId.toU8 (data : RevisionId) : U8 := (data.major <<< 5) ||| (data.minor &&& 0b11111#8)

/-- src/capabilities/hypertransport.rs:513-540 -/
def LinkFrequency.new (link_freq_ext : Bool) (link_freq : U8) : LinkFrequency :=
  match link_freq_ext, link_freq.toNat with
  | false, 0b0000 => .Rate200MHz
  | false, 0b0001 => .Rate300MHz
  | false, 0b0010 => .Rate400MHz
  | false, 0b0011 => .Rate500MHz
  | false, 0b0100 => .Rate600MHz
  | false, 0b0101 => .Rate800MHz
  | false, 0b0110 => .Rate1000MHz
  | false, 0b0111 => .Rate1200MHz
  | false, 0b1000 => .Rate1400MHz
  | false, 0b1001 => .Rate1600MHz
  | false, 0b1010 => .Rate1800MHz
  | false, 0b1011 => .Rate2000MHz
  | false, 0b1100 => .Rate2200MHz
  | false, 0b1101 => .Rate2400MHz
  | false, 0b1110 => .Rate2600MHz
  | false, 0b1111 => .VendorSpecific
  | true, 0b0001 => .Rate2800MHz
  | true, 0b0010 => .Rate3000MHz
  | true, 0b0011 => .Rate3200MHz
  | b, _ => .Reserved ((link_freq &&& 0b1111#8) ||| (BitVec.ofNat 8 (b2n b) <<< 4))

/-- src/capabilities/hypertransport.rs:247-254, 255-262, 801-808: frequency and error byte -/
def linkFreqErr (byte : U8) : U8 × LinkError := runBits byte do
  let link_freq ← bits 4
  let protocol_error ← bit
  let overflow_error ← bit
  let end_of_chain_error ← bit
  let ctl_timeout ← bit
  return (link_freq, {
    protocol_error := protocol_error, overflow_error := overflow_error,
    end_of_chain_error := end_of_chain_error, ctl_timeout := ctl_timeout })

/-- src/capabilities/hypertransport.rs:225-284 -/
def SlaveOrPrimaryInterface.ofBytes (bytes : Bytes) : Res HypertransportError SlaveOrPrimaryInterface := do
  let (command, lc0, lcfg0, lc1, lcfg1, rev, fe0, fc0, feature, fe1, fc1, scratch, eh, base, limit,
      bus) ← BP.arr (do
    let command ← le16
    let lc0 ← le16
    let lcfg0 ← le16
    let lc1 ← le16
    let lcfg1 ← le16
    let rev ← le8
    let fe0 ← le8
    let fc0 ← le16
    let feature ← le8
    let fe1 ← le8
    let fc1 ← le16
    let scratch ← le16
    let eh ← le16
    let base ← le8
    let limit ← le8
    let bus ← le8
    let _rsvd ← le8
    return (command, lc0, lcfg0, lc1, lcfg1, rev, fe0, fc0, feature, fe1, fc1, scratch, eh, base,
      limit, bus)) bytes
  return {
    command := SlaveOrPrimaryCommand.ofU16 command
    link_control_0 := LinkControl.ofU16 lc0
    link_config_0 := LinkConfiguration.ofU16 lcfg0
    link_control_1 := LinkControl.ofU16 lc1
    link_config_1 := LinkConfiguration.ofU16 lcfg1
    revision_id := RevisionId.ofU8 rev
    link_freq_0 := (linkFreqErr fe0).1
    link_error_0 := (linkFreqErr fe0).2
    link_freq_cap_0 := LinkFrequencyCapability.ofU16 fc0
    feature := FeatureCapability.ofU16 (feature.setWidth 16)
    link_freq_1 := (linkFreqErr fe1).1
    link_error_1 := (linkFreqErr fe1).2
    link_freq_cap_1 := LinkFrequencyCapability.ofU16 fc1
    enumeration_scratchpad := scratch
    error_handling := ErrorHandling.ofU16 eh
    mem_base_upper := base
    mem_limit_upper := limit
    bus_number := bus }

/-- src/capabilities/hypertransport.rs:218-220 -/
def SlaveOrPrimaryInterface.linkFreq0 (s : SlaveOrPrimaryInterface) (ext : Bool) : LinkFrequency :=
  LinkFrequency.new ext s.link_freq_0

/-- src/capabilities/hypertransport.rs:221-223 -/
def SlaveOrPrimaryInterface.linkFreq1 (s : SlaveOrPrimaryInterface) (ext : Bool) : LinkFrequency :=
  LinkFrequency.new ext s.link_freq_1

/-- src/capabilities/hypertransport.rs:783-824 -/
def HostOrSecondaryInterface.ofBytes (bytes : Bytes) :
    Res HypertransportError HostOrSecondaryInterface := do
  let (command, lc, lcfg, rev, fe, fc, feature, scratch, eh, base, limit) ← BP.arr (do
    let command ← le16
    let lc ← le16
    let lcfg ← le16
    let rev ← le8
    let fe ← le8
    let fc ← le16
    let feature ← le16
    let _rsvd_0 ← le16
    let scratch ← le16
    let eh ← le16
    let base ← le8
    let limit ← le8
    let _rsvd_1 ← le16
    return (command, lc, lcfg, rev, fe, fc, feature, scratch, eh, base, limit)) bytes
  return {
    command := HostOrSecondaryCommand.ofU16 command
    link_control := LinkControl.ofU16 lc
    link_config := LinkConfiguration.ofU16 lcfg
    revision_id := RevisionId.ofU8 rev
    link_freq := (linkFreqErr fe).1
    link_error := (linkFreqErr fe).2
    link_freq_cap := LinkFrequencyCapability.ofU16 fc
    feature := FeatureCapability.ofU16 feature
    enumeration_scratchpad := scratch
    error_handling := ErrorHandling.ofU16 eh
    mem_base_upper := base
    mem_limit_upper := limit }

/-- src/capabilities/hypertransport.rs:777-782 -/
def HostOrSecondaryInterface.linkFreq (s : HostOrSecondaryInterface) (ext : Bool) : LinkFrequency :=
  LinkFrequency.new ext s.link_freq

/-- src/capabilities/hypertransport.rs:913-924 -/
def MsiMapping.ofBytes (bytes : Bytes) : Res HypertransportError MsiMapping := do
  let (cmd, lower, upper) ← BP.arr (do
    let cmd ← le16
    let lower ← le32
    let upper ← le32
    return (cmd, lower, upper)) bytes
  let (enabled, fixed) : Bool × Bool := runBits cmd do
    let enabled ← bit
    let fixed ← bit
    skip 14
    return (enabled, fixed)
  return {
    enabled := enabled
    fixed := fixed
    base_address_lower := lower
    base_address_upper := upper }

/-- src/capabilities/hypertransport.rs:905-912 -/
def MsiMapping.base_address (m : MsiMapping) : U64 :=
  let h := (m.base_address_upper.setWidth 64 : U64) <<< 32
  let l := (m.base_address_lower.setWidth 64 : U64) &&& ~~~0xfffff#64
  h ||| l

/-- src/capabilities/hypertransport.rs:95-148.  `slice.get(..2).and_then(try_into).map(from_le_bytes)`
is the 16-bit little-endian value of the first two bytes; `slice.first()` the first byte. -/
def Hypertransport.ofBytes (slice : Bytes) : Res HypertransportError Hypertransport := do
  let cmd ← BP.head le16 HypertransportError.CapabilityType slice
  let capability_type : U8 := runBits cmd do
    skip 11
    let t ← bits 5
    return t
  match capability_type.toNat with
  | 0b00000 | 0b00001 | 0b00010 | 0b00011 => do
    let data ← Res.okOr .SlaveOrPrimaryInterface (getTo slice 26)
    let x ← SlaveOrPrimaryInterface.ofBytes data
    return .SlaveOrPrimaryInterface x
  | 0b00100 | 0b00101 | 0b00110 | 0b00111 => do
    let data ← Res.okOr .HostOrSecondaryInterface (getTo slice 22)
    let x ← HostOrSecondaryInterface.ofBytes data
    return .HostOrSecondaryInterface x
  | 0b01000 => .ok (.Switch {})
  | 0b01001 => .ok (.ReservedHost {})
  | 0b10000 => .ok (.InterruptDiscoveryAndConfiguration {})
  | 0b10001 => do
    let data ← BP.head le8 HypertransportError.RevisionId slice
    return .RevisionId (RevisionId.ofU8 data)
  | 0b10010 => .ok (.UnitIdClumping {})
  | 0b10011 => .ok (.ExtendedConfigurationSpaceAccess {})
  | 0b10100 => .ok (.AddressMapping {})
  | 0b10101 => do
    let data ← Res.okOr .MsiMapping (getTo slice 10)
    let x ← MsiMapping.ofBytes data
    return .MsiMapping x
  | 0b10110 => .ok (.DirectRoute {})
  | 0b10111 => .ok (.VCSet {})
  | 0b11000 => .ok (.RetryMode {})
  | 0b11001 => .ok (.X86Encoding {})
  | 0b11010 => .ok (.Gen3 {})
  | 0b11011 => .ok (.FunctionLevelExtension {})
  | 0b11100 => .ok (.PowerManagement {})
  | 0b11101 => .ok (.HighNodeCount {})
  | _ => .ok (.Reserved capability_type)

end Pcics.Hypertransport
