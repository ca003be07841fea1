import Verif.Model.Cap.Hypertransport
import Verif.Spec
/- Specification of src/capabilities/hypertransport.rs: positions and value tables. -/

namespace Pcics.Hypertransport
open Spec

/-- Values of `LinkWidth`. -/
def LinkWidth.spec (c : U8) : LinkWidth :=
  pick c [(0, .Width8bits), (1, .Width16bits), (3, .Width32bits), (4, .Width2bits),
    (5, .Width4bits), (7, .NotConnected)] (.Reserved c)

/-- Layout of `SlaveOrPrimaryCommand`. -/
def SlaveOrPrimaryCommand.spec (w : U16) : SlaveOrPrimaryCommand :=
  {
    base_unitid := fld w 0 5, unit_count := fld w 5 5, master_host := flag w 10,
    default_direction := flag w 11, drop_on_uninitialized_link := flag w 12 }

/-- Layout of `LinkControl`. -/
def LinkControl.spec (w : U16) : LinkControl :=
  {
    source_id_enable := flag w 0, crc_flood_enable := flag w 1, crc_start_test := flag w 2,
    crc_force_error := flag w 3, link_failure := flag w 4, initialization_complete := flag w 5,
    end_of_chain := flag w 6, transmitter_off := flag w 7, crc_error := fld w 8 4,
    isochronous_flow_control_enable := flag w 12, ldtstop_tristate_enable := flag w 13,
    extended_ctl_time := flag w 14, enable_64_bit_addressing := flag w 15 }

/-- Layout of `LinkConfiguration`. -/
def LinkConfiguration.spec (w : U16) : LinkConfiguration :=
  {
    max_link_width_in := LinkWidth.spec (fld w 0 3), doubleword_flow_control_in := flag w 3,
    max_link_width_out := LinkWidth.spec (fld w 4 3), doubleword_flow_control_out := flag w 7,
    link_width_in := LinkWidth.spec (fld w 8 3), doubleword_flow_control_in_enable := flag w 11,
    link_width_out := LinkWidth.spec (fld w 12 3),
    doubleword_flow_control_out_enable := flag w 15 }

/-- Layout of `RevisionId`. -/
def RevisionId.spec (w : U8) : RevisionId :=
  { minor := fld w 0 5, major := fld w 5 3 }

/-- Layout of `LinkFrequencyCapability`. -/
def LinkFrequencyCapability.spec (w : U16) : LinkFrequencyCapability :=
  {
    supports_200mhz := flag w 0, supports_300mhz := flag w 1, supports_400mhz := flag w 2,
    supports_500mhz := flag w 3, supports_600mhz := flag w 4, supports_800mhz := flag w 5,
    supports_1000mhz := flag w 6, supports_1200mhz := flag w 7, supports_1400mhz := flag w 8,
    supports_1600mhz := flag w 9, supports_1800mhz := flag w 10, supports_2000mhz := flag w 11,
    supports_2200mhz := flag w 12, supports_2400mhz := flag w 13, supports_2600mhz := flag w 14,
    supports_vendor_specific := flag w 15 }

/-- Layout of `FeatureCapability`. -/
def FeatureCapability.spec (w : U16) : FeatureCapability :=
  {
    isochronous_flow_control_mode := flag w 0, ldtstop := flag w 1, crc_test_mode := flag w 2,
    extended_ctl_time_required := flag w 3, qword_addressing := flag w 4,
    unitid_reorder_disable := flag w 5, source_identification_extension := flag w 6,
    extended_register_set := flag w 8, upstream_configuration_enable := flag w 9 }

/-- Layout of `ErrorHandling`. -/
def ErrorHandling.spec (w : U16) : ErrorHandling :=
  {
    protocol_error_flood_enable := flag w 0, overflow_error_flood_enable := flag w 1,
    protocol_error_fatal_enable := flag w 2, overflow_error_fatal_enable := flag w 3,
    end_of_chain_error_fatal_enable := flag w 4, response_error_fatal_enable := flag w 5,
    crc_error_fatal_enable := flag w 6, system_error_fatal_enable := flag w 7,
    chain_fail := flag w 8, response_error := flag w 9,
    protocol_error_nonfatal_enable := flag w 10, overflow_error_nonfatal_enable := flag w 11,
    end_of_chain_error_nonfatal_enable := flag w 12, response_error_nonfatal_enable := flag w 13,
    crc_error_nonfatal_enable := flag w 14, system_error_nonfatal_enable := flag w 15 }

/-- Layout of `HostOrSecondaryCommand`. -/
def HostOrSecondaryCommand.spec (w : U16) : HostOrSecondaryCommand :=
  {
    warm_reset := flag w 0, double_ended := flag w 1, device_number := fld w 2 5,
    chain_side := flag w 7, host_hide := flag w 8, act_as_slave := flag w 10,
    host_inbound_end_of_chain_error := flag w 11, drop_on_uninitialized_link := flag w 12 }

/-- Bits 7:4 of the link frequency and error byte. -/
def LinkError.spec (b : U8) : LinkError :=
  { protocol_error := flag b 4
    overflow_error := flag b 5
    end_of_chain_error := flag b 6
    ctl_timeout := flag b 7 }

/-- Slave or primary interface block. -/
def SlaveOrPrimaryInterface.spec (d : Bytes) : SlaveOrPrimaryInterface :=
  { command := .spec (rd16 d 0)
    link_control_0 := .spec (rd16 d 2)
    link_config_0 := .spec (rd16 d 4)
    link_control_1 := .spec (rd16 d 6)
    link_config_1 := .spec (rd16 d 8)
    revision_id := .spec (byteAt d 10)
    link_freq_0 := fld (byteAt d 11) 0 4
    link_error_0 := .spec (byteAt d 11)
    link_freq_cap_0 := .spec (rd16 d 12)
    feature := .spec ((byteAt d 14).setWidth 16)
    link_freq_1 := fld (byteAt d 15) 0 4
    link_error_1 := .spec (byteAt d 15)
    link_freq_cap_1 := .spec (rd16 d 16)
    enumeration_scratchpad := rd16 d 18
    error_handling := .spec (rd16 d 20)
    mem_base_upper := byteAt d 22
    mem_limit_upper := byteAt d 23
    bus_number := byteAt d 24 }

/-- Host or secondary interface block. -/
def HostOrSecondaryInterface.spec (d : Bytes) : HostOrSecondaryInterface :=
  { command := .spec (rd16 d 0)
    link_control := .spec (rd16 d 2)
    link_config := .spec (rd16 d 4)
    revision_id := .spec (byteAt d 6)
    link_freq := fld (byteAt d 7) 0 4
    link_error := .spec (byteAt d 7)
    link_freq_cap := .spec (rd16 d 8)
    feature := .spec (rd16 d 10)
    enumeration_scratchpad := rd16 d 14
    error_handling := .spec (rd16 d 16)
    mem_base_upper := byteAt d 18
    mem_limit_upper := byteAt d 19 }

/-- MSI mapping block. -/
def MsiMapping.spec (d : Bytes) : MsiMapping :=
  { enabled := flag (rd16 d 0) 0
    fixed := flag (rd16 d 0) 1
    base_address_lower := rd32 d 2
    base_address_upper := rd32 d 6 }

/-- Link frequency of the four frequency bits and the extension bit as one five bit code. -/
def LinkFrequency.spec (ext : Bool) (code : BitVec 4) : LinkFrequency :=
  pick (cat (BitVec.ofBool ext) code : U8) [(0, .Rate200MHz), (1, .Rate300MHz), (2, .Rate400MHz),
    (3, .Rate500MHz), (4, .Rate600MHz), (5, .Rate800MHz), (6, .Rate1000MHz), (7, .Rate1200MHz),
    (8, .Rate1400MHz), (9, .Rate1600MHz), (10, .Rate1800MHz), (11, .Rate2000MHz),
    (12, .Rate2200MHz), (13, .Rate2400MHz), (14, .Rate2600MHz), (15, .VendorSpecific),
    (17, .Rate2800MHz), (18, .Rate3000MHz), (19, .Rate3200MHz)]
    (.Reserved (cat (BitVec.ofBool ext) code))

/-- The block types with a register layout: code range, bytes needed, error, decoded block.  Codes
`000xx` and `001xx` have only three significant bits. -/
def blockSpec (d : Bytes) (t : U8) : Res HypertransportError Hypertransport :=
  let t3 : U8 := fld t 2 3
  if t3 = 0 then
    if 26 ≤ d.length then .ok (.SlaveOrPrimaryInterface (.spec d)) else .err .SlaveOrPrimaryInterface
  else if t3 = 1 then
    if 22 ≤ d.length then .ok (.HostOrSecondaryInterface (.spec d)) else .err .HostOrSecondaryInterface
  else if t = 0b10001 then .ok (.RevisionId (.spec (byteAt d 0)))
  else if t = 0b10101 then
    if 10 ≤ d.length then .ok (.MsiMapping (.spec d)) else .err .MsiMapping
  else .ok (pick t [(0b01000, .Switch {}), (0b01001, .ReservedHost {}),
    (0b10000, .InterruptDiscoveryAndConfiguration {}), (0b10010, .UnitIdClumping {}),
    (0b10011, .ExtendedConfigurationSpaceAccess {}), (0b10100, .AddressMapping {}),
    (0b10110, .DirectRoute {}), (0b10111, .VCSet {}), (0b11000, .RetryMode {}),
    (0b11001, .X86Encoding {}), (0b11010, .Gen3 {}), (0b11011, .FunctionLevelExtension {}),
    (0b11100, .PowerManagement {}), (0b11101, .HighNodeCount {})] (.Reserved t))

end Pcics.Hypertransport
