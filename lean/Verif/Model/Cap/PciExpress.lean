import Verif.Model.Common
/- Model of src/capabilities/pci_express.rs -/

namespace Pcics.PciExpress

/-- src/capabilities/pci_express.rs:232-237 -/
inductive PciExpressError where
  | RequiredBytesSlice
  | RootBytesSlice
  deriving DecidableEq, Repr

/-- src/capabilities/pci_express.rs:918-935 -/
inductive LinkSpeed where
  | Rate2GTps
  | Rate5GTps
  | Rate8GTps
  | Rate16GTps
  | Rate32GTps
  | Rate64GTps
  | RateRsvdp
  | Reserved (v : U8)
  deriving DecidableEq, Repr

/-- src/capabilities/pci_express.rs:967-976 -/
inductive LinkWidth where
  | Reserved (v : U8)
  | X1
  | X2
  | X4
  | X8
  | X12
  | X16
  | X32
  deriving DecidableEq, Repr

/-- src/capabilities/pci_express.rs:1008-1013 -/
inductive ActiveStatePowerManagement where
  | NoAspm
  | L0s
  | L1
  | L0sAndL1
  deriving DecidableEq, Repr

/-- src/capabilities/pci_express.rs:1028-1045 -/
inductive L0sExitLatency where
  | Lt64ns
  | Ge64nsAndLt128ns
  | Ge128nsAndLt256ns
  | Ge256nsAndLt512ns
  | Ge512nsAndLt1us
  | Ge1usAndLt2us
  | Ge2usAndLt4us
  | Gt4ns
  deriving DecidableEq, Repr

/-- src/capabilities/pci_express.rs:1064-1081 -/
inductive L1ExitLatency where
  | Lt1us
  | Ge1usAndLt2us
  | Ge2usAndLt4us
  | Ge4usAndLt8us
  | Ge8usAndLt16us
  | Ge16usAndLt32us
  | Ge32usAndLt64us
  | Gt64ns
  deriving DecidableEq, Repr

/-- src/capabilities/pci_express.rs:863-882 -/
structure LinkCapabilities where
  max_link_speed : LinkSpeed
  maximum_link_width : LinkWidth
  active_state_power_management_support : ActiveStatePowerManagement
  l0s_exit_latency : L0sExitLatency
  l1_exit_latency : L1ExitLatency
  clock_power_management : Bool
  surprise_down_error_reporting_capable : Bool
  data_link_layer_link_active_reporting_capable : Bool
  link_bandwidth_notification_capability : Bool
  aspm_optionality_compliance : Bool
  port_number : U8
  deriving DecidableEq, Repr

/-- src/capabilities/pci_express.rs:1153-1156 -/
inductive ReadCompletionBoundary where
  | B64
  | B128
  deriving DecidableEq, Repr

/-- src/capabilities/pci_express.rs:1099-1120 -/
structure LinkControl where
  active_state_power_management_control : ActiveStatePowerManagement
  read_completion_boundary : ReadCompletionBoundary
  link_disable : Bool
  retrain_link : Bool
  common_clock_configuration : Bool
  extended_synch : Bool
  enable_clock_power_management : Bool
  hardware_autonomous_width_disable : Bool
  link_bandwidth_management_interrupt_enable : Bool
  link_autonomous_bandwidth_interrupt_enable : Bool
  deriving DecidableEq, Repr

/-- src/capabilities/pci_express.rs:1169-1186 -/
structure LinkStatus where
  current_link_speed : LinkSpeed
  negotiated_link_width : LinkWidth
  link_training_error : Bool
  link_training : Bool
  slot_clock_configuration : Bool
  data_link_layer_link_active : Bool
  link_bandwidth_management_status : Bool
  link_autonomous_bandwidth_status : Bool
  deriving DecidableEq, Repr

/-- src/capabilities/pci_express.rs:846-850 -/
structure Link where
  capabilities : LinkCapabilities
  control : LinkControl
  status : LinkStatus
  deriving DecidableEq, Repr

/-- src/capabilities/pci_express.rs:2094-2109 -/
structure SupportedLinkSpeedsVector where
  speed_2_5_gtps : Bool
  speed_5_0_gtps : Bool
  speed_8_0_gtps : Bool
  speed_16_0_gtps : Bool
  speed_32_0_gtps : Bool
  speed_64_0_gtps : Bool
  reserved : Bool
  deriving DecidableEq, Repr

/-- src/capabilities/pci_express.rs:2051-2066 -/
structure LinkCapabilities2 where
  supported_link_speeds_vector : SupportedLinkSpeedsVector
  crosslink_supported : Bool
  lower_skp_os_generation_supported_speeds_vector : SupportedLinkSpeedsVector
  lower_skp_os_reception_supported_speeds_vector : SupportedLinkSpeedsVector
  retimer_presence_detect_supported : Bool
  two_retimers_presence_detect_supported : Bool
  drs_supported : Bool
  deriving DecidableEq, Repr

/-- src/capabilities/pci_express.rs:2180-2183 -/
inductive DeEmphasis where
  | Minus3_5dB
  | Minus6dB
  deriving DecidableEq, Repr

/-- src/capabilities/pci_express.rs:2198-2198 -/
structure TransmitMargin where
  val : U8
  deriving DecidableEq, Repr

/-- src/capabilities/pci_express.rs:2214-2214 -/
structure CompliancePresetOrDeEmphasis where
  val : U8
  deriving DecidableEq, Repr

/-- src/capabilities/pci_express.rs:2134-2150 -/
structure LinkControl2 where
  target_link_speed : LinkSpeed
  enter_compliance : Bool
  hardware_autonomous_speed_disable : Bool
  selectable_de_emphasis : DeEmphasis
  transmit_margin : TransmitMargin
  enter_modified_compliance : Bool
  compliance_sos : Bool
  compliance_preset_or_de_emphasis : CompliancePresetOrDeEmphasis
  deriving DecidableEq, Repr

/-- src/capabilities/pci_express.rs:2280-2289 -/
inductive CrosslinkResolution where
  | NotSupported
  | UpstreamPort
  | DownstreamPort
  | NotCompleted
  deriving DecidableEq, Repr

/-- src/capabilities/pci_express.rs:2305-2318 -/
inductive DownstreamComponentPresence where
  | DownNotDetermined
  | DownNotPresent
  | DownPresent
  | UpPresent
  | UpPresentAndDrsReceived
  | Reserved (v : U8)
  deriving DecidableEq, Repr

/-- src/capabilities/pci_express.rs:2222-2245 -/
structure LinkStatus2 where
  current_de_emphasis_level : DeEmphasis
  equalization_complete : Bool
  equalization_phase_1_successful : Bool
  equalization_phase_2_successful : Bool
  equalization_phase_3_successful : Bool
  link_equalization_request : Bool
  retimer_presence_detected : Bool
  two_retimers_presence_detected : Bool
  crosslink_resolution : CrosslinkResolution
  downstream_component_presence : DownstreamComponentPresence
  drs_message_received : Bool
  deriving DecidableEq, Repr

/-- src/capabilities/pci_express.rs:2034-2038 -/
structure Link2 where
  capabilities : LinkCapabilities2
  control : LinkControl2
  status : LinkStatus2
  deriving DecidableEq, Repr

/-- src/capabilities/pci_express.rs:1435-1446 -/
structure RootControl where
  system_error_on_correctable_error_enable : Bool
  system_error_on_non_fatal_error_enable : Bool
  system_error_on_fatal_error_enable : Bool
  pme_interrupt_enable : Bool
  crs_software_visibility_enable : Bool
  deriving DecidableEq, Repr

/-- src/capabilities/pci_express.rs:1469-1472 -/
structure RootCapabilities where
  crs_software_visibility : Bool
  deriving DecidableEq, Repr

/-- src/capabilities/pci_express.rs:1484-1491 -/
structure RootStatus where
  pme_requester_id : U16
  pme_status : Bool
  pme_pending : Bool
  deriving DecidableEq, Repr

/-- src/capabilities/pci_express.rs:1418-1422 -/
structure Root where
  control : RootControl
  capabilities : RootCapabilities
  status : RootStatus
  deriving DecidableEq, Repr

/-- src/capabilities/pci_express.rs:703-708.  The `f32` scale takes only the values 1.0, 0.1, 0.01
and 0.001 (`new` below is the only code that fills it in): it is represented by the number of decimal
places, so `k` stands for the literal `10^-k`.  The `f32` products of lines 724-733 are in
Model/Float.lean. -/
structure SlotPowerLimit where
  value : U8
  scale : Nat
  deriving DecidableEq, Repr

/-- src/capabilities/pci_express.rs:1233-1256 -/
structure SlotCapabilities where
  attention_button_present : Bool
  power_controller_present : Bool
  mrl_sensor_present : Bool
  attention_indicator_present : Bool
  power_indicator_present : Bool
  hot_plug_surprise : Bool
  hot_plug_capable : Bool
  slot_power_limit : SlotPowerLimit
  electromechanical_interlock_present : Bool
  no_command_completed_support : Bool
  physical_slot_number : U16
  deriving DecidableEq, Repr

/-- src/capabilities/pci_express.rs:1348-1353 -/
inductive IndicatorControl where
  | Reserved
  | On
  | Blink
  | Off
  deriving DecidableEq, Repr

/-- src/capabilities/pci_express.rs:1290-1313 -/
structure SlotControl where
  attention_button_pressed_enable : Bool
  power_fault_detected_enable : Bool
  mrl_sensor_changed_enable : Bool
  presence_detect_changed_enable : Bool
  command_completed_interrupt_enable : Bool
  hot_plug_interrupt_enable : Bool
  attention_indicator_control : IndicatorControl
  power_indicator_control : IndicatorControl
  power_controller_control : Bool
  electromechanical_interlock_control : Bool
  data_link_layer_state_changed_enable : Bool
  deriving DecidableEq, Repr

/-- src/capabilities/pci_express.rs:1367-1386 -/
structure SlotStatus where
  attention_button_pressed : Bool
  power_fault_detected : Bool
  mrl_sensor_changed : Bool
  presence_detect_changed : Bool
  command_completed : Bool
  mrl_sensor_state : Bool
  presence_detect_state : Bool
  electromechanical_interlock_status : Bool
  data_link_layer_state_changed : Bool
  deriving DecidableEq, Repr

/-- src/capabilities/pci_express.rs:1216-1220 -/
structure Slot where
  capabilities : SlotCapabilities
  control : SlotControl
  status : SlotStatus
  deriving DecidableEq, Repr

/-- src/capabilities/pci_express.rs:2352-2352 -/
structure SlotCapabilities2 where
  deriving DecidableEq, Repr

/-- src/capabilities/pci_express.rs:2363-2363 -/
structure SlotControl2 where
  deriving DecidableEq, Repr

/-- src/capabilities/pci_express.rs:2374-2374 -/
structure SlotStatus2 where
  deriving DecidableEq, Repr

/-- src/capabilities/pci_express.rs:2333-2337 -/
structure Slot2 where
  capabilities : SlotCapabilities2
  control : SlotControl2
  status : SlotStatus2
  deriving DecidableEq, Repr

/-- src/capabilities/pci_express.rs:345-389 -/
inductive DeviceType where
  | Endpoint (link : Link) (link_2 : Option Link2)
  | LegacyEndpoint (link : Link) (link_2 : Option Link2)
  | RootComplexIntegratedEndpoint
  | RootComplexEventCollector (root : Root)
  | RootPort (link : Link) (link_2 : Option Link2) (slot : Slot) (slot_2 : Option Slot2) (root : Root)
  | UpstreamPort (link : Link) (link_2 : Option Link2)
  | DownstreamPort (link : Link) (link_2 : Option Link2) (slot : Slot) (slot_2 : Option Slot2)
  | PcieToPciBridge (link : Link) (link_2 : Option Link2)
  | PciToPcieBridge (link : Link) (link_2 : Option Link2) (slot : Slot) (slot_2 : Option Slot2)
  | Reserved (id : U8) (link : Link) (link_2 : Option Link2) (slot : Slot) (slot_2 : Option Slot2) (root : Option Root)
  deriving DecidableEq, Repr

/-- src/capabilities/pci_express.rs:547-564 -/
inductive MaxSize where
  | B128
  | B256
  | B512
  | B1024
  | B2048
  | B4096
  | Reserved0
  | Reserved1
  deriving DecidableEq, Repr

/-- src/capabilities/pci_express.rs:585-595 -/
inductive PhantomFunctionsSupported where
  | NoBits
  | MostSignificantBit
  | TwoMostSignificantBits
  | AllBits
  deriving DecidableEq, Repr

/-- src/capabilities/pci_express.rs:610-615 -/
inductive ExtendedTagFieldSupported where
  | Five
  | Eight
  deriving DecidableEq, Repr

/-- src/capabilities/pci_express.rs:629-646 -/
inductive EndpointL0sAcceptableLatency where
  | Max64ns
  | Max128ns
  | Max256ns
  | Max512ns
  | Max1us
  | Max2us
  | Max4us
  | NoLimit
  deriving DecidableEq, Repr

/-- src/capabilities/pci_express.rs:666-683 -/
inductive EndpointL1AcceptableLatency where
  | Max1us
  | Max2us
  | Max4us
  | Max8us
  | Max16us
  | Max32us
  | Max64us
  | NoLimit
  deriving DecidableEq, Repr

/-- src/capabilities/pci_express.rs:486-510 -/
structure DeviceCapabilities where
  max_payload_size_supported : MaxSize
  phantom_functions_supported : PhantomFunctionsSupported
  extended_tag_field_supported : ExtendedTagFieldSupported
  endpoint_l0s_acceptable_latency : EndpointL0sAcceptableLatency
  endpoint_l1_acceptable_latency : EndpointL1AcceptableLatency
  attention_button_present : Bool
  attention_indicator_present : Bool
  power_indicator_present : Bool
  role_based_error_reporting : Bool
  captured_slot_power_limit : SlotPowerLimit
  function_level_reset_capability : Bool
  deriving DecidableEq, Repr

/-- src/capabilities/pci_express.rs:737-766 -/
structure DeviceControl where
  correctable_error_reporting_enable : Bool
  non_fatal_error_reporting_enable : Bool
  fatal_error_reporting_enable : Bool
  unsupported_request_reporting_enable : Bool
  enable_relaxed_ordering : Bool
  max_payload_size : MaxSize
  extended_tag_field_enable : Bool
  phantom_functions_enable : Bool
  aux_power_pm_enable : Bool
  enable_no_snoop : Bool
  max_read_request_size : MaxSize
  bcre_or_flreset : Bool
  deriving DecidableEq, Repr

/-- src/capabilities/pci_express.rs:802-820 -/
structure DeviceStatus where
  correctable_error_detected : Bool
  non_fatal_error_detected : Bool
  fatal_error_detected : Bool
  unsupported_request_detected : Bool
  aux_power_detected : Bool
  transactions_pending : Bool
  deriving DecidableEq, Repr

/-- src/capabilities/pci_express.rs:470-474 -/
structure Device where
  capabilities : DeviceCapabilities
  control : DeviceControl
  status : DeviceStatus
  deriving DecidableEq, Repr

/-- src/capabilities/pci_express.rs:1616-1636 -/
inductive CompletionTimeoutRanges where
  | NotSupported
  | RangeA
  | RangeB
  | RangesAB
  | RangesBC
  | RangesABC
  | RangesBCD
  | RangesABCD
  | Reserved (v : U8)
  deriving DecidableEq, Repr

/-- src/capabilities/pci_express.rs:1676-1685 -/
inductive TphCompleter where
  | NotSupported
  | Tph
  | Reserved
  | TphAndExtendedTph
  deriving DecidableEq, Repr

/-- src/capabilities/pci_express.rs:1711-1720 -/
inductive LnSystemCls where
  | NotSupported
  | Cachelines64Byte
  | Cachelines128Byte
  | Reserved
  deriving DecidableEq, Repr

/-- src/capabilities/pci_express.rs:1745-1754 -/
inductive Obff where
  | NotSupported
  | Message
  | Wake
  | WakeAndMessage
  deriving DecidableEq, Repr

/-- src/capabilities/pci_express.rs:1779-1788 -/
inductive MaxEndEndTlpPrefixes where
  | Max4
  | Max1
  | Max2
  | Max3
  deriving DecidableEq, Repr

/-- src/capabilities/pci_express.rs:1813-1824 -/
inductive EmergencyPowerReduction where
  | NotSupported
  | DeviceSpecific
  | FormFactorOrDeviceSpecific
  | Reserved
  deriving DecidableEq, Repr

/-- src/capabilities/pci_express.rs:1521-1562 -/
structure DeviceCapabilities2 where
  completion_timeout_ranges_supported : CompletionTimeoutRanges
  completion_timeout_disable_supported : Bool
  ari_forwarding_supported : Bool
  atomic_op_routing_supported : Bool
  u32_atomicop_completer_supported : Bool
  u64_atomicop_completer_supported : Bool
  u128_cas_completer_supported : Bool
  no_ro_enabled_pr_pr_passing : Bool
  ltr_mechanism_supported : Bool
  tph_completer_supported : TphCompleter
  ln_system_cls : LnSystemCls
  support_10bit_tag_completer : Bool
  support_10bit_tag_requester : Bool
  obff_supported : Obff
  extended_fmt_field_supported : Bool
  end_end_tlp_prefix_supported : Bool
  max_end_end_tlp_prefixes : MaxEndEndTlpPrefixes
  emergency_power_reduction_supported : EmergencyPowerReduction
  emergency_power_reduction_initialization_required : Bool
  frs_supported : Bool
  deriving DecidableEq, Repr

/-- src/capabilities/pci_express.rs:1909-1929 -/
inductive CompletionTimeoutValue where
  | DefaultRange50usTo50ms
  | RangeA50usTo100us
  | RangeA1msTo10ms
  | RangeB16msTo55mss
  | RangeB65msTo210ms
  | RangeC260msTo900ms
  | RangeC1000msTo3500ms
  | RangeD4sTo13s
  | RangeD17sTo64s
  | Reserved (v : U8)
  deriving DecidableEq, Repr

/-- src/capabilities/pci_express.rs:1964-1973 -/
inductive ObffEnable where
  | Disabled
  | MessageSignalingA
  | MessageSignalingB
  | WakeSignaling
  deriving DecidableEq, Repr

/-- src/capabilities/pci_express.rs:2009-2014 -/
inductive EndEndTlpPrefixBlocking where
  | ForwardingEnabled
  | ForwardingBlocked
  deriving DecidableEq, Repr

/-- src/capabilities/pci_express.rs:1849-1874 -/
structure DeviceControl2 where
  completion_timeout_value : CompletionTimeoutValue
  completion_timeout_disable : Bool
  ari_forwarding_enable : Bool
  atomic_op_requester_enable : Bool
  atomic_op_egress_blocking : Bool
  ido_request_enable : Bool
  ido_completion_enable : Bool
  ltr_mechanism_enable : Bool
  emergency_power_reduction_request : Bool
  enable_10bit_tag_requester : Bool
  obff_enable : ObffEnable
  end_end_tlp_prefix_blocking : EndEndTlpPrefixBlocking
  deriving DecidableEq, Repr

/-- src/capabilities/pci_express.rs:1999-1999 -/
structure DeviceStatus2 where
  deriving DecidableEq, Repr

/-- src/capabilities/pci_express.rs:1505-1509 -/
structure Device2 where
  capabilities : DeviceCapabilities2
  control : DeviceControl2
  status : DeviceStatus2
  deriving DecidableEq, Repr

/-- src/capabilities/pci_express.rs:241-254 -/
structure PciExpress where
  version : U8
  device_type : DeviceType
  slot_implemented : Bool
  interrupt_message_number : U8
  tcs_routing_support : Bool
  device : Device
  device_2 : Option Device2
  deriving DecidableEq, Repr

/-- src/capabilities/pci_express.rs:565-579 -/
def MaxSize.ofU8 {ε : Type} (b : U8) : Res ε MaxSize :=
  match b.toNat with
  | 0b000 => .ok .B128
  | 0b001 => .ok .B256
  | 0b010 => .ok .B512
  | 0b011 => .ok .B1024
  | 0b100 => .ok .B2048
  | 0b101 => .ok .B4096
  | 0b110 => .ok .Reserved0
  | 0b111 => .ok .Reserved1
  | _ => .panic

/-- src/capabilities/pci_express.rs:596-606 -/
def PhantomFunctionsSupported.ofU8 {ε : Type} (b : U8) : Res ε PhantomFunctionsSupported :=
  match b.toNat with
  | 0b00 => .ok .NoBits
  | 0b01 => .ok .MostSignificantBit
  | 0b10 => .ok .TwoMostSignificantBits
  | 0b11 => .ok .AllBits
  | _ => .panic

/-- src/capabilities/pci_express.rs:647-661 -/
def EndpointL0sAcceptableLatency.ofU8 {ε : Type} (b : U8) : Res ε EndpointL0sAcceptableLatency :=
  match b.toNat with
  | 0b000 => .ok .Max64ns
  | 0b001 => .ok .Max128ns
  | 0b010 => .ok .Max256ns
  | 0b011 => .ok .Max512ns
  | 0b100 => .ok .Max1us
  | 0b101 => .ok .Max2us
  | 0b110 => .ok .Max4us
  | 0b111 => .ok .NoLimit
  | _ => .panic

/-- src/capabilities/pci_express.rs:684-698 -/
def EndpointL1AcceptableLatency.ofU8 {ε : Type} (b : U8) : Res ε EndpointL1AcceptableLatency :=
  match b.toNat with
  | 0b000 => .ok .Max1us
  | 0b001 => .ok .Max2us
  | 0b010 => .ok .Max4us
  | 0b011 => .ok .Max8us
  | 0b100 => .ok .Max16us
  | 0b101 => .ok .Max32us
  | 0b110 => .ok .Max64us
  | 0b111 => .ok .NoLimit
  | _ => .panic

/-- src/capabilities/pci_express.rs:616-624 -/
def ExtendedTagFieldSupported.ofBOOL (b : Bool) : ExtendedTagFieldSupported := if b then .Eight else .Five

/-- src/capabilities/pci_express.rs:709-722 -/
def SlotPowerLimit.new {ε : Type} (value : U8) (scale : U8) : Res ε SlotPowerLimit :=
  match scale.toNat with
  | 0b00 => .ok { value := value, scale := 0 }
  | 0b01 => .ok { value := value, scale := 1 }
  | 0b10 => .ok { value := value, scale := 2 }
  | 0b11 => .ok { value := value, scale := 3 }
  | _ => .panic

/-- src/capabilities/pci_express.rs:511-543 -/
def DeviceCapabilities.ofU32 {ε : Type} (w : U32) : Res ε DeviceCapabilities := runBits w do
  let mpss ← bits 3
  let phfs ← bits 2
  let etfs ← bit
  let l0s_lat ← bits 3
  let l1_lat ← bits 3
  let attention_button_present ← bit
  let attention_indicator_present ← bit
  let power_indicator_present ← bit
  let role_based_error_reporting ← bit
  skip 2
  let cspl_value ← bits 8
  let cspl_scale ← bits 2
  let function_level_reset_capability ← bit
  skip 3
  return do
    let max_payload_size_supported ← MaxSize.ofU8 mpss
    let phantom_functions_supported ← PhantomFunctionsSupported.ofU8 phfs
    let endpoint_l0s_acceptable_latency ← EndpointL0sAcceptableLatency.ofU8 l0s_lat
    let endpoint_l1_acceptable_latency ← EndpointL1AcceptableLatency.ofU8 l1_lat
    let captured_slot_power_limit ← SlotPowerLimit.new cspl_value cspl_scale
    return {
      max_payload_size_supported := max_payload_size_supported,
      phantom_functions_supported := phantom_functions_supported,
      extended_tag_field_supported := ExtendedTagFieldSupported.ofBOOL etfs,
      endpoint_l0s_acceptable_latency := endpoint_l0s_acceptable_latency,
      endpoint_l1_acceptable_latency := endpoint_l1_acceptable_latency,
      attention_button_present := attention_button_present,
      attention_indicator_present := attention_indicator_present,
      power_indicator_present := power_indicator_present,
      role_based_error_reporting := role_based_error_reporting,
      captured_slot_power_limit := captured_slot_power_limit,
      function_level_reset_capability := function_level_reset_capability }

/-- src/capabilities/pci_express.rs:767-798 -/
def DeviceControl.ofU16 {ε : Type} (w : U16) : Res ε DeviceControl := runBits w do
  let correctable_error_reporting_enable ← bit
  let non_fatal_error_reporting_enable ← bit
  let fatal_error_reporting_enable ← bit
  let unsupported_request_reporting_enable ← bit
  let enable_relaxed_ordering ← bit
  let mps ← bits 3
  let extended_tag_field_enable ← bit
  let phantom_functions_enable ← bit
  let aux_power_pm_enable ← bit
  let enable_no_snoop ← bit
  let mrrs ← bits 3
  let bcre_or_flreset ← bit
  return do
    let max_payload_size ← MaxSize.ofU8 mps
    let max_read_request_size ← MaxSize.ofU8 mrrs
    return {
      correctable_error_reporting_enable := correctable_error_reporting_enable,
      non_fatal_error_reporting_enable := non_fatal_error_reporting_enable,
      fatal_error_reporting_enable := fatal_error_reporting_enable,
      unsupported_request_reporting_enable := unsupported_request_reporting_enable,
      enable_relaxed_ordering := enable_relaxed_ordering, max_payload_size := max_payload_size,
      extended_tag_field_enable := extended_tag_field_enable,
      phantom_functions_enable := phantom_functions_enable,
      aux_power_pm_enable := aux_power_pm_enable, enable_no_snoop := enable_no_snoop,
      max_read_request_size := max_read_request_size, bcre_or_flreset := bcre_or_flreset }

/-- src/capabilities/pci_express.rs:821-841 -/
def DeviceStatus.ofU16 (w : U16) : DeviceStatus := runBits w do
  let correctable_error_detected ← bit
  let non_fatal_error_detected ← bit
  let fatal_error_detected ← bit
  let unsupported_request_detected ← bit
  let aux_power_detected ← bit
  let transactions_pending ← bit
  skip 10
  return {
    correctable_error_detected := correctable_error_detected,
    non_fatal_error_detected := non_fatal_error_detected,
    fatal_error_detected := fatal_error_detected,
    unsupported_request_detected := unsupported_request_detected,
    aux_power_detected := aux_power_detected, transactions_pending := transactions_pending }

/-- src/capabilities/pci_express.rs:1014-1024 -/
def ActiveStatePowerManagement.ofU8 {ε : Type} (b : U8) : Res ε ActiveStatePowerManagement :=
  match b.toNat with
  | 0b00 => .ok .NoAspm
  | 0b01 => .ok .L0s
  | 0b10 => .ok .L1
  | 0b11 => .ok .L0sAndL1
  | _ => .panic

/-- src/capabilities/pci_express.rs:1046-1060 -/
def L0sExitLatency.ofU8 {ε : Type} (b : U8) : Res ε L0sExitLatency :=
  match b.toNat with
  | 0b000 => .ok .Lt64ns
  | 0b001 => .ok .Ge64nsAndLt128ns
  | 0b010 => .ok .Ge128nsAndLt256ns
  | 0b011 => .ok .Ge256nsAndLt512ns
  | 0b100 => .ok .Ge512nsAndLt1us
  | 0b101 => .ok .Ge1usAndLt2us
  | 0b110 => .ok .Ge2usAndLt4us
  | 0b111 => .ok .Gt4ns
  | _ => .panic

/-- src/capabilities/pci_express.rs:1082-1096 -/
def L1ExitLatency.ofU8 {ε : Type} (b : U8) : Res ε L1ExitLatency :=
  match b.toNat with
  | 0b000 => .ok .Lt1us
  | 0b001 => .ok .Ge1usAndLt2us
  | 0b010 => .ok .Ge2usAndLt4us
  | 0b011 => .ok .Ge4usAndLt8us
  | 0b100 => .ok .Ge8usAndLt16us
  | 0b101 => .ok .Ge16usAndLt32us
  | 0b110 => .ok .Ge32usAndLt64us
  | 0b111 => .ok .Gt64ns
  | _ => .panic

/-- src/capabilities/pci_express.rs:936-949 -/
def LinkSpeed.ofU8 (b : U8) : LinkSpeed :=
  match b.toNat with
  | 0b0001 => .Rate2GTps
  | 0b0010 => .Rate5GTps
  | 0b0011 => .Rate8GTps
  | 0b0100 => .Rate16GTps
  | 0b0101 => .Rate32GTps
  | 0b0110 => .Rate64GTps
  | 0b0111 => .RateRsvdp
  | _ => .Reserved b

/-- src/capabilities/pci_express.rs:977-990 -/
def LinkWidth.ofU8 (b : U8) : LinkWidth :=
  match b.toNat with
  | 0b000001 => .X1
  | 0b000010 => .X2
  | 0b000100 => .X4
  | 0b001000 => .X8
  | 0b001100 => .X12
  | 0b010000 => .X16
  | 0b100000 => .X32
  | _ => .Reserved b

/-- src/capabilities/pci_express.rs:883-913 -/
def LinkCapabilities.ofU32 {ε : Type} (w : U32) : Res ε LinkCapabilities := runBits w do
  let mls ← bits 4
  let mlw ← bits 6
  let aspms ← bits 2
  let l0s_lat ← bits 3
  let l1_lat ← bits 3
  let clock_power_management ← bit
  let surprise_down_error_reporting_capable ← bit
  let data_link_layer_link_active_reporting_capable ← bit
  let link_bandwidth_notification_capability ← bit
  let aspm_optionality_compliance ← bit
  skip 1
  let port_number ← bits 8
  return do
    let active_state_power_management_support ← ActiveStatePowerManagement.ofU8 aspms
    let l0s_exit_latency ← L0sExitLatency.ofU8 l0s_lat
    let l1_exit_latency ← L1ExitLatency.ofU8 l1_lat
    return {
      max_link_speed := LinkSpeed.ofU8 mls, maximum_link_width := LinkWidth.ofU8 mlw,
      active_state_power_management_support := active_state_power_management_support,
      l0s_exit_latency := l0s_exit_latency, l1_exit_latency := l1_exit_latency,
      clock_power_management := clock_power_management,
      surprise_down_error_reporting_capable := surprise_down_error_reporting_capable,
      data_link_layer_link_active_reporting_capable := data_link_layer_link_active_reporting_capable,
      link_bandwidth_notification_capability := link_bandwidth_notification_capability,
      aspm_optionality_compliance := aspm_optionality_compliance, port_number := port_number }

/-- src/capabilities/pci_express.rs:950-963 -/
def LinkSpeed.toU8 : LinkSpeed → U8
  | .Rate2GTps => 1
  | .Rate5GTps => 2
  | .Rate8GTps => 3
  | .Rate16GTps => 4
  | .Rate32GTps => 5
  | .Rate64GTps => 6
  | .RateRsvdp => 7
  | .Reserved v => v

/-- src/capabilities/pci_express.rs:991-1004 -/
def LinkWidth.toU8 : LinkWidth → U8
  | .X1 => 1
  | .X2 => 2
  | .X4 => 4
  | .X8 => 8
  | .X12 => 12
  | .X16 => 16
  | .X32 => 32
  | .Reserved v => v

/-- src/capabilities/pci_express.rs:1157-1165 -/
def ReadCompletionBoundary.ofBOOL (b : Bool) : ReadCompletionBoundary := if b then .B128 else .B64

/-- src/capabilities/pci_express.rs:1121-1150 -/
def LinkControl.ofU16 {ε : Type} (w : U16) : Res ε LinkControl := runBits w do
  let aspmc ← bits 2
  skip 1
  let rcb ← bit
  let link_disable ← bit
  let retrain_link ← bit
  let common_clock_configuration ← bit
  let extended_synch ← bit
  let enable_clock_power_management ← bit
  let hardware_autonomous_width_disable ← bit
  let link_bandwidth_management_interrupt_enable ← bit
  let link_autonomous_bandwidth_interrupt_enable ← bit
  skip 4
  return do
    let active_state_power_management_control ← ActiveStatePowerManagement.ofU8 aspmc
    return {
      active_state_power_management_control := active_state_power_management_control,
      read_completion_boundary := ReadCompletionBoundary.ofBOOL rcb,
      link_disable := link_disable, retrain_link := retrain_link,
      common_clock_configuration := common_clock_configuration, extended_synch := extended_synch,
      enable_clock_power_management := enable_clock_power_management,
      hardware_autonomous_width_disable := hardware_autonomous_width_disable,
      link_bandwidth_management_interrupt_enable := link_bandwidth_management_interrupt_enable,
      link_autonomous_bandwidth_interrupt_enable := link_autonomous_bandwidth_interrupt_enable }

/-- src/capabilities/pci_express.rs:1187-1210 -/
def LinkStatus.ofU16 (w : U16) : LinkStatus := runBits w do
  let cls ← bits 4
  let nlw ← bits 6
  let link_training_error ← bit
  let link_training ← bit
  let slot_clock_configuration ← bit
  let data_link_layer_link_active ← bit
  let link_bandwidth_management_status ← bit
  let link_autonomous_bandwidth_status ← bit
  return {
    current_link_speed := LinkSpeed.ofU8 cls, negotiated_link_width := LinkWidth.ofU8 nlw,
    link_training_error := link_training_error, link_training := link_training,
    slot_clock_configuration := slot_clock_configuration,
    data_link_layer_link_active := data_link_layer_link_active,
    link_bandwidth_management_status := link_bandwidth_management_status,
    link_autonomous_bandwidth_status := link_autonomous_bandwidth_status }

/-- src/capabilities/pci_express.rs:1257-1287 -/
def SlotCapabilities.ofU32 {ε : Type} (w : U32) : Res ε SlotCapabilities := runBits w do
  let attention_button_present ← bit
  let power_controller_present ← bit
  let mrl_sensor_present ← bit
  let attention_indicator_present ← bit
  let power_indicator_present ← bit
  let hot_plug_surprise ← bit
  let hot_plug_capable ← bit
  let spl_value ← bits 8
  let spl_scale ← bits 2
  let electromechanical_interlock_present ← bit
  let no_command_completed_support ← bit
  let physical_slot_number ← bits 13
  return do
    let slot_power_limit ← SlotPowerLimit.new spl_value spl_scale
    return {
      attention_button_present := attention_button_present,
      power_controller_present := power_controller_present,
      mrl_sensor_present := mrl_sensor_present,
      attention_indicator_present := attention_indicator_present,
      power_indicator_present := power_indicator_present, hot_plug_surprise := hot_plug_surprise,
      hot_plug_capable := hot_plug_capable,
      slot_power_limit := slot_power_limit,
      electromechanical_interlock_present := electromechanical_interlock_present,
      no_command_completed_support := no_command_completed_support,
      physical_slot_number := physical_slot_number }

/-- src/capabilities/pci_express.rs:1354-1364 -/
def IndicatorControl.ofU8 {ε : Type} (b : U8) : Res ε IndicatorControl :=
  match b.toNat with
  | 0b00 => .ok .Reserved
  | 0b01 => .ok .On
  | 0b10 => .ok .Blink
  | 0b11 => .ok .Off
  | _ => .panic

/-- src/capabilities/pci_express.rs:1314-1344 -/
def SlotControl.ofU16 {ε : Type} (w : U16) : Res ε SlotControl := runBits w do
  let attention_button_pressed_enable ← bit
  let power_fault_detected_enable ← bit
  let mrl_sensor_changed_enable ← bit
  let presence_detect_changed_enable ← bit
  let command_completed_interrupt_enable ← bit
  let hot_plug_interrupt_enable ← bit
  let aic ← bits 2
  let pic ← bits 2
  let power_controller_control ← bit
  let electromechanical_interlock_control ← bit
  let data_link_layer_state_changed_enable ← bit
  skip 3
  return do
    let attention_indicator_control ← IndicatorControl.ofU8 aic
    let power_indicator_control ← IndicatorControl.ofU8 pic
    return {
      attention_button_pressed_enable := attention_button_pressed_enable,
      power_fault_detected_enable := power_fault_detected_enable,
      mrl_sensor_changed_enable := mrl_sensor_changed_enable,
      presence_detect_changed_enable := presence_detect_changed_enable,
      command_completed_interrupt_enable := command_completed_interrupt_enable,
      hot_plug_interrupt_enable := hot_plug_interrupt_enable,
      attention_indicator_control := attention_indicator_control,
      power_indicator_control := power_indicator_control,
      power_controller_control := power_controller_control,
      electromechanical_interlock_control := electromechanical_interlock_control,
      data_link_layer_state_changed_enable := data_link_layer_state_changed_enable }

/-- src/capabilities/pci_express.rs:1387-1413 -/
def SlotStatus.ofU16 (w : U16) : SlotStatus := runBits w do
  let attention_button_pressed ← bit
  let power_fault_detected ← bit
  let mrl_sensor_changed ← bit
  let presence_detect_changed ← bit
  let command_completed ← bit
  let mrl_sensor_state ← bit
  let presence_detect_state ← bit
  let electromechanical_interlock_status ← bit
  let data_link_layer_state_changed ← bit
  skip 7
  return {
    attention_button_pressed := attention_button_pressed,
    power_fault_detected := power_fault_detected, mrl_sensor_changed := mrl_sensor_changed,
    presence_detect_changed := presence_detect_changed, command_completed := command_completed,
    mrl_sensor_state := mrl_sensor_state, presence_detect_state := presence_detect_state,
    electromechanical_interlock_status := electromechanical_interlock_status,
    data_link_layer_state_changed := data_link_layer_state_changed }

/-- src/capabilities/pci_express.rs:1447-1465 -/
def RootControl.ofU16 (w : U16) : RootControl := runBits w do
  let system_error_on_correctable_error_enable ← bit
  let system_error_on_non_fatal_error_enable ← bit
  let system_error_on_fatal_error_enable ← bit
  let pme_interrupt_enable ← bit
  let crs_software_visibility_enable ← bit
  skip 11
  return {
    system_error_on_correctable_error_enable := system_error_on_correctable_error_enable,
    system_error_on_non_fatal_error_enable := system_error_on_non_fatal_error_enable,
    system_error_on_fatal_error_enable := system_error_on_fatal_error_enable,
    pme_interrupt_enable := pme_interrupt_enable,
    crs_software_visibility_enable := crs_software_visibility_enable }

/-- src/capabilities/pci_express.rs:1473-1480 -/
def RootCapabilities.ofU16 (w : U16) : RootCapabilities := runBits w do
  let crs_software_visibility ← bit
  skip 15
  return { crs_software_visibility := crs_software_visibility }

/-- src/capabilities/pci_express.rs:1492-1502 -/
def RootStatus.ofU32 (w : U32) : RootStatus := runBits w do
  let pme_requester_id ← bits 16
  let pme_status ← bit
  let pme_pending ← bit
  skip 14
  return {
    pme_requester_id := pme_requester_id, pme_status := pme_status, pme_pending := pme_pending }

/-- src/capabilities/pci_express.rs:1686-1696 -/
def TphCompleter.ofU8 {ε : Type} (b : U8) : Res ε TphCompleter :=
  match b.toNat with
  | 0b00 => .ok .NotSupported
  | 0b01 => .ok .Tph
  | 0b10 => .ok .Reserved
  | 0b11 => .ok .TphAndExtendedTph
  | _ => .panic

/-- src/capabilities/pci_express.rs:1721-1731 -/
def LnSystemCls.ofU8 {ε : Type} (b : U8) : Res ε LnSystemCls :=
  match b.toNat with
  | 0b00 => .ok .NotSupported
  | 0b01 => .ok .Cachelines64Byte
  | 0b10 => .ok .Cachelines128Byte
  | 0b11 => .ok .Reserved
  | _ => .panic

/-- src/capabilities/pci_express.rs:1755-1765 -/
def Obff.ofU8 {ε : Type} (b : U8) : Res ε Obff :=
  match b.toNat with
  | 0b00 => .ok .NotSupported
  | 0b01 => .ok .Message
  | 0b10 => .ok .Wake
  | 0b11 => .ok .WakeAndMessage
  | _ => .panic

/-- src/capabilities/pci_express.rs:1789-1799 -/
def MaxEndEndTlpPrefixes.ofU8 {ε : Type} (b : U8) : Res ε MaxEndEndTlpPrefixes :=
  match b.toNat with
  | 0b00 => .ok .Max4
  | 0b01 => .ok .Max1
  | 0b10 => .ok .Max2
  | 0b11 => .ok .Max3
  | _ => .panic

/-- src/capabilities/pci_express.rs:1825-1835 -/
def EmergencyPowerReduction.ofU8 {ε : Type} (b : U8) : Res ε EmergencyPowerReduction :=
  match b.toNat with
  | 0b00 => .ok .NotSupported
  | 0b01 => .ok .DeviceSpecific
  | 0b10 => .ok .FormFactorOrDeviceSpecific
  | 0b11 => .ok .Reserved
  | _ => .panic

/-- src/capabilities/pci_express.rs:1643-1657 -/
def CompletionTimeoutRanges.ofU8 (b : U8) : CompletionTimeoutRanges :=
  match b.toNat with
  | 0b0000 => .NotSupported
  | 0b0001 => .RangeA
  | 0b0010 => .RangeB
  | 0b0011 => .RangesAB
  | 0b0110 => .RangesBC
  | 0b0111 => .RangesABC
  | 0b1110 => .RangesBCD
  | 0b1111 => .RangesABCD
  | _ => .Reserved b

/-- src/capabilities/pci_express.rs:1563-1612 -/
def DeviceCapabilities2.ofU32 {ε : Type} (w : U32) : Res ε DeviceCapabilities2 := runBits w do
  let ctrs ← bits 4
  let completion_timeout_disable_supported ← bit
  let ari_forwarding_supported ← bit
  let atomic_op_routing_supported ← bit
  let u32_atomicop_completer_supported ← bit
  let u64_atomicop_completer_supported ← bit
  let u128_cas_completer_supported ← bit
  let no_ro_enabled_pr_pr_passing ← bit
  let ltr_mechanism_supported ← bit
  let tcs ← bits 2
  let lsc ← bits 2
  let support_10bit_tag_completer ← bit
  let support_10bit_tag_requester ← bit
  let os ← bits 2
  let extended_fmt_field_supported ← bit
  let end_end_tlp_prefix_supported ← bit
  let meetp ← bits 2
  let eprs ← bits 2
  let emergency_power_reduction_initialization_required ← bit
  skip 4
  let frs_supported ← bit
  return do
    let tph_completer_supported ← TphCompleter.ofU8 tcs
    let ln_system_cls ← LnSystemCls.ofU8 lsc
    let obff_supported ← Obff.ofU8 os
    let max_end_end_tlp_prefixes ← MaxEndEndTlpPrefixes.ofU8 meetp
    let emergency_power_reduction_supported ← EmergencyPowerReduction.ofU8 eprs
    return {
      completion_timeout_ranges_supported := CompletionTimeoutRanges.ofU8 ctrs,
      completion_timeout_disable_supported := completion_timeout_disable_supported,
      ari_forwarding_supported := ari_forwarding_supported,
      atomic_op_routing_supported := atomic_op_routing_supported,
      u32_atomicop_completer_supported := u32_atomicop_completer_supported,
      u64_atomicop_completer_supported := u64_atomicop_completer_supported,
      u128_cas_completer_supported := u128_cas_completer_supported,
      no_ro_enabled_pr_pr_passing := no_ro_enabled_pr_pr_passing,
      ltr_mechanism_supported := ltr_mechanism_supported,
      tph_completer_supported := tph_completer_supported, ln_system_cls := ln_system_cls,
      support_10bit_tag_completer := support_10bit_tag_completer,
      support_10bit_tag_requester := support_10bit_tag_requester,
      obff_supported := obff_supported,
      extended_fmt_field_supported := extended_fmt_field_supported,
      end_end_tlp_prefix_supported := end_end_tlp_prefix_supported,
      max_end_end_tlp_prefixes := max_end_end_tlp_prefixes,
      emergency_power_reduction_supported := emergency_power_reduction_supported,
      emergency_power_reduction_initialization_required := emergency_power_reduction_initialization_required,
      frs_supported := frs_supported }

/-- src/capabilities/pci_express.rs:1658-1672 -/
def CompletionTimeoutRanges.toU8 : CompletionTimeoutRanges → U8
  | .NotSupported => 0b0000
  | .RangeA => 0b0001
  | .RangeB => 0b0010
  | .RangesAB => 0b0011
  | .RangesBC => 0b0110
  | .RangesABC => 0b0111
  | .RangesBCD => 0b1110
  | .RangesABCD => 0b1111
  | .Reserved v => v

/-- src/capabilities/pci_express.rs:1697-1706 -/
def TphCompleter.toU8 : TphCompleter → U8
  | .NotSupported => 0b00
  | .Tph => 0b01
  | .Reserved => 0b10
  | .TphAndExtendedTph => 0b11

/-- src/capabilities/pci_express.rs:1732-1741 -/
def LnSystemCls.toU8 : LnSystemCls → U8
  | .NotSupported => 0b00
  | .Cachelines64Byte => 0b01
  | .Cachelines128Byte => 0b10
  | .Reserved => 0b11

/-- src/capabilities/pci_express.rs:1766-1775 -/
def Obff.toU8 : Obff → U8
  | .NotSupported => 0b00
  | .Message => 0b01
  | .Wake => 0b10
  | .WakeAndMessage => 0b11

/-- src/capabilities/pci_express.rs:1800-1809 -/
def MaxEndEndTlpPrefixes.toU8 : MaxEndEndTlpPrefixes → U8
  | .Max4 => 0b00
  | .Max1 => 0b01
  | .Max2 => 0b10
  | .Max3 => 0b11

/-- src/capabilities/pci_express.rs:1836-1845 -/
def EmergencyPowerReduction.toU8 : EmergencyPowerReduction → U8
  | .NotSupported => 0b00
  | .DeviceSpecific => 0b01
  | .FormFactorOrDeviceSpecific => 0b10
  | .Reserved => 0b11

/-- src/capabilities/pci_express.rs:1974-1984 -/
def ObffEnable.ofU8 {ε : Type} (b : U8) : Res ε ObffEnable :=
  match b.toNat with
  | 0b00 => .ok .Disabled
  | 0b01 => .ok .MessageSignalingA
  | 0b10 => .ok .MessageSignalingB
  | 0b11 => .ok .WakeSignaling
  | _ => .panic

/-- src/capabilities/pci_express.rs:1930-1945 -/
def CompletionTimeoutValue.ofU8 (b : U8) : CompletionTimeoutValue :=
  match b.toNat with
  | 0b0000 => .DefaultRange50usTo50ms
  | 0b0001 => .RangeA50usTo100us
  | 0b0010 => .RangeA1msTo10ms
  | 0b0101 => .RangeB16msTo55mss
  | 0b0110 => .RangeB65msTo210ms
  | 0b1001 => .RangeC260msTo900ms
  | 0b1010 => .RangeC1000msTo3500ms
  | 0b1101 => .RangeD4sTo13s
  | 0b1110 => .RangeD17sTo64s
  | _ => .Reserved b

/-- src/capabilities/pci_express.rs:2015-2023 -/
def EndEndTlpPrefixBlocking.ofBOOL (b : Bool) : EndEndTlpPrefixBlocking := if b then .ForwardingBlocked else .ForwardingEnabled

/-- src/capabilities/pci_express.rs:1875-1906 -/
def DeviceControl2.ofU16 {ε : Type} (w : U16) : Res ε DeviceControl2 := runBits w do
  let ctv ← bits 4
  let completion_timeout_disable ← bit
  let ari_forwarding_enable ← bit
  let atomic_op_requester_enable ← bit
  let atomic_op_egress_blocking ← bit
  let ido_request_enable ← bit
  let ido_completion_enable ← bit
  let ltr_mechanism_enable ← bit
  let emergency_power_reduction_request ← bit
  let enable_10bit_tag_requester ← bit
  let oe ← bits 2
  let eetpd ← bit
  return do
    let obff_enable ← ObffEnable.ofU8 oe
    return {
      completion_timeout_value := CompletionTimeoutValue.ofU8 ctv,
      completion_timeout_disable := completion_timeout_disable,
      ari_forwarding_enable := ari_forwarding_enable,
      atomic_op_requester_enable := atomic_op_requester_enable,
      atomic_op_egress_blocking := atomic_op_egress_blocking,
      ido_request_enable := ido_request_enable, ido_completion_enable := ido_completion_enable,
      ltr_mechanism_enable := ltr_mechanism_enable,
      emergency_power_reduction_request := emergency_power_reduction_request,
      enable_10bit_tag_requester := enable_10bit_tag_requester, obff_enable := obff_enable,
      end_end_tlp_prefix_blocking := EndEndTlpPrefixBlocking.ofBOOL eetpd }

/-- src/capabilities/pci_express.rs:1946-1961 -/
def CompletionTimeoutValue.toU8 : CompletionTimeoutValue → U8
  | .DefaultRange50usTo50ms => 0b0000
  | .RangeA50usTo100us => 0b0001
  | .RangeA1msTo10ms => 0b0010
  | .RangeB16msTo55mss => 0b0101
  | .RangeB65msTo210ms => 0b0110
  | .RangeC260msTo900ms => 0b1001
  | .RangeC1000msTo3500ms => 0b1010
  | .RangeD4sTo13s => 0b1101
  | .RangeD17sTo64s => 0b1110
  | .Reserved v => v

/-- src/capabilities/pci_express.rs:1985-1994 -/
def ObffEnable.toU8 : ObffEnable → U8
  | .Disabled => 0b00
  | .MessageSignalingA => 0b01
  | .MessageSignalingB => 0b10
  | .WakeSignaling => 0b11

/-- src/capabilities/pci_express.rs:2000-2004 -/
def DeviceStatus2.ofU16 (_w : U16) : DeviceStatus2 := {}

/-- src/capabilities/pci_express.rs:2024-2031 -/
def EndEndTlpPrefixBlocking.toBool : EndEndTlpPrefixBlocking → Bool
  | .ForwardingEnabled => false
  | .ForwardingBlocked => true

/-- src/capabilities/pci_express.rs:2110-2131 -/
def SupportedLinkSpeedsVector.ofU8 (w : U8) : SupportedLinkSpeedsVector := runBits w do
  let speed_2_5_gtps ← bit
  let speed_5_0_gtps ← bit
  let speed_8_0_gtps ← bit
  let speed_16_0_gtps ← bit
  let speed_32_0_gtps ← bit
  let speed_64_0_gtps ← bit
  let reserved ← bit
  return {
    speed_2_5_gtps := speed_2_5_gtps, speed_5_0_gtps := speed_5_0_gtps,
    speed_8_0_gtps := speed_8_0_gtps, speed_16_0_gtps := speed_16_0_gtps,
    speed_32_0_gtps := speed_32_0_gtps, speed_64_0_gtps := speed_64_0_gtps, reserved := reserved }

/-- src/capabilities/pci_express.rs:2067-2090 -/
def LinkCapabilities2.ofU32 (w : U32) : LinkCapabilities2 := runBits w do
  skip 1
  let slsv ← bits 7
  let crosslink_supported ← bit
  let lsog ← bits 7
  let lsor ← bits 7
  let retimer_presence_detect_supported ← bit
  let two_retimers_presence_detect_supported ← bit
  skip 6
  let drs_supported ← bit
  return {
    supported_link_speeds_vector := SupportedLinkSpeedsVector.ofU8 slsv,
    crosslink_supported := crosslink_supported,
    lower_skp_os_generation_supported_speeds_vector := SupportedLinkSpeedsVector.ofU8 lsog,
    lower_skp_os_reception_supported_speeds_vector := SupportedLinkSpeedsVector.ofU8 lsor,
    retimer_presence_detect_supported := retimer_presence_detect_supported,
    two_retimers_presence_detect_supported := two_retimers_presence_detect_supported,
    drs_supported := drs_supported }

/-- src/capabilities/pci_express.rs:2184-2192 -/
def DeEmphasis.ofBOOL (b : Bool) : DeEmphasis := if b then .Minus3_5dB else .Minus6dB

/-- src/capabilities/pci_express.rs:2199-2203 -/
def TransmitMargin.ofU8 (v : U8) : TransmitMargin := ⟨v⟩

/-- src/capabilities/pci_express.rs:2215-2219 -/
def CompliancePresetOrDeEmphasis.ofU8 (v : U8) : CompliancePresetOrDeEmphasis := ⟨v⟩

/-- src/capabilities/pci_express.rs:2151-2174 -/
def LinkControl2.ofU16 (w : U16) : LinkControl2 := runBits w do
  let tls ← bits 4
  let enter_compliance ← bit
  let hardware_autonomous_speed_disable ← bit
  let sde ← bit
  let tm ← bits 3
  let enter_modified_compliance ← bit
  let compliance_sos ← bit
  let cpode ← bits 4
  return {
    target_link_speed := LinkSpeed.ofU8 tls, enter_compliance := enter_compliance,
    hardware_autonomous_speed_disable := hardware_autonomous_speed_disable,
    selectable_de_emphasis := DeEmphasis.ofBOOL sde, transmit_margin := TransmitMargin.ofU8 tm,
    enter_modified_compliance := enter_modified_compliance, compliance_sos := compliance_sos,
    compliance_preset_or_de_emphasis := CompliancePresetOrDeEmphasis.ofU8 cpode }

/-- src/capabilities/pci_express.rs:2290-2300 -/
def CrosslinkResolution.ofU8 {ε : Type} (b : U8) : Res ε CrosslinkResolution :=
  match b.toNat with
  | 0b00 => .ok .NotSupported
  | 0b01 => .ok .UpstreamPort
  | 0b10 => .ok .DownstreamPort
  | 0b11 => .ok .NotCompleted
  | _ => .panic

/-- src/capabilities/pci_express.rs:2319-2330 -/
def DownstreamComponentPresence.ofU8 (b : U8) : DownstreamComponentPresence :=
  match b.toNat with
  | 0b000 => .DownNotDetermined
  | 0b001 => .DownNotPresent
  | 0b010 => .DownPresent
  | 0b100 => .UpPresent
  | 0b101 => .UpPresentAndDrsReceived
  | _ => .Reserved b

/-- src/capabilities/pci_express.rs:2246-2276 -/
def LinkStatus2.ofU16 {ε : Type} (w : U16) : Res ε LinkStatus2 := runBits w do
  let cdel ← bit
  let equalization_complete ← bit
  let equalization_phase_1_successful ← bit
  let equalization_phase_2_successful ← bit
  let equalization_phase_3_successful ← bit
  let link_equalization_request ← bit
  let retimer_presence_detected ← bit
  let two_retimers_presence_detected ← bit
  let cr ← bits 2
  skip 2
  let dcp ← bits 3
  let drs_message_received ← bit
  return do
    let crosslink_resolution ← CrosslinkResolution.ofU8 cr
    return {
      current_de_emphasis_level := DeEmphasis.ofBOOL cdel,
      equalization_complete := equalization_complete,
      equalization_phase_1_successful := equalization_phase_1_successful,
      equalization_phase_2_successful := equalization_phase_2_successful,
      equalization_phase_3_successful := equalization_phase_3_successful,
      link_equalization_request := link_equalization_request,
      retimer_presence_detected := retimer_presence_detected,
      two_retimers_presence_detected := two_retimers_presence_detected,
      crosslink_resolution := crosslink_resolution,
      downstream_component_presence := DownstreamComponentPresence.ofU8 dcp,
      drs_message_received := drs_message_received }

/-- src/capabilities/pci_express.rs:2353-2357 -/
def SlotCapabilities2.ofU32 (_w : U32) : SlotCapabilities2 := {}

/-- src/capabilities/pci_express.rs:2364-2368 -/
def SlotControl2.ofU16 (_w : U16) : SlotControl2 := {}

/-- src/capabilities/pci_express.rs:2375-2379 -/
def SlotStatus2.ofU16 (_w : U16) : SlotStatus2 := {}

/-- src/capabilities/pci_express.rs:2383-2396 -/
inductive TransmitterPreset where
  | P0
  | P1
  | P2
  | P3
  | P4
  | P5
  | P6
  | P7
  | P8
  | P9
  | P10
  | Reserved (v : U8)
  deriving DecidableEq, Repr

/-- src/capabilities/pci_express.rs:2397-2414 -/
def TransmitterPreset.ofU8 (b : U8) : TransmitterPreset :=
  match b.toNat with
  | 0b0000 => .P0
  | 0b0001 => .P1
  | 0b0010 => .P2
  | 0b0011 => .P3
  | 0b0100 => .P4
  | 0b0101 => .P5
  | 0b0110 => .P6
  | 0b0111 => .P7
  | 0b1000 => .P8
  | 0b1001 => .P9
  | 0b1010 => .P10
  | _ => .Reserved b

/-- src/capabilities/pci_express.rs:2418-2427 -/
inductive ReceiverPresetHint where
  | Minus6dB
  | Minus7dB
  | Minus8dB
  | Minus9dB
  | Minus10dB
  | Minus11dB
  | Minus12dB
  | Reserved
  deriving DecidableEq, Repr

/-- src/capabilities/pci_express.rs:2428-2441 -/
def ReceiverPresetHint.ofU8 (b : U8) : ReceiverPresetHint :=
  match b.toNat with
  | 0b000 => .Minus6dB
  | 0b001 => .Minus7dB
  | 0b010 => .Minus8dB
  | 0b011 => .Minus9dB
  | 0b100 => .Minus10dB
  | 0b101 => .Minus11dB
  | 0b110 => .Minus12dB
  | _ => .Reserved

/-- src/capabilities/pci_express.rs:475-483 -/
def Device.new {ε : Type} (capabilities : U32) (control status : U16) : Res ε Device := do
  let capabilities ← DeviceCapabilities.ofU32 capabilities
  let control ← DeviceControl.ofU16 control
  return { capabilities := capabilities, control := control, status := DeviceStatus.ofU16 status }

/-- src/capabilities/pci_express.rs:851-859 -/
def Link.new {ε : Type} (capabilities : U32) (control status : U16) : Res ε Link := do
  let capabilities ← LinkCapabilities.ofU32 capabilities
  let control ← LinkControl.ofU16 control
  return { capabilities := capabilities, control := control, status := LinkStatus.ofU16 status }

/-- src/capabilities/pci_express.rs:1221-1229 -/
def Slot.new {ε : Type} (capabilities : U32) (control status : U16) : Res ε Slot := do
  let capabilities ← SlotCapabilities.ofU32 capabilities
  let control ← SlotControl.ofU16 control
  return { capabilities := capabilities, control := control, status := SlotStatus.ofU16 status }

/-- src/capabilities/pci_express.rs:1423-1431 -/
def Root.new (control capabilities : U16) (status : U32) : Root :=
  { control := RootControl.ofU16 control, capabilities := RootCapabilities.ofU16 capabilities,
    status := RootStatus.ofU32 status }

/-- src/capabilities/pci_express.rs:1510-1518 -/
def Device2.new {ε : Type} (capabilities : U32) (control status : U16) : Res ε Device2 := do
  let capabilities ← DeviceCapabilities2.ofU32 capabilities
  let control ← DeviceControl2.ofU16 control
  return { capabilities := capabilities, control := control, status := DeviceStatus2.ofU16 status }

/-- src/capabilities/pci_express.rs:2039-2047 -/
def Link2.new {ε : Type} (capabilities : U32) (control status : U16) : Res ε Link2 := do
  let status ← LinkStatus2.ofU16 status
  return { capabilities := LinkCapabilities2.ofU32 capabilities,
           control := LinkControl2.ofU16 control, status := status }

/-- src/capabilities/pci_express.rs:2338-2346 -/
def Slot2.new (capabilities : U32) (control status : U16) : Slot2 :=
  { capabilities := SlotCapabilities2.ofU32 capabilities, control := SlotControl2.ofU16 control,
    status := SlotStatus2.ofU16 status }

/-- src/capabilities/pci_express.rs:390-398 -/
def DeviceType.is_endpoint : DeviceType → Bool
  | .Endpoint .. | .LegacyEndpoint .. | .RootComplexIntegratedEndpoint => true
  | _ => false

/-- src/capabilities/pci_express.rs:399-404 -/
def DeviceType.is_root : DeviceType → Bool
  | .RootPort .. | .RootComplexEventCollector .. => true
  | _ => false

/-- src/capabilities/pci_express.rs:405-412 -/
def DeviceType.is_downstream_port : DeviceType → Bool
  | .RootPort .. | .DownstreamPort .. | .PciToPcieBridge .. => true
  | _ => false

/-- src/capabilities/pci_express.rs:414-465 -/
def DeviceType.tryFrom (device_type : U8) (link : Link) (slot : Slot) (root : Option Root)
    (link_2 : Option Link2) (slot_2 : Option Slot2) : Res PciExpressError DeviceType :=
  match device_type.toNat, root with
  | 0b0000, _ => .ok (.Endpoint link link_2)
  | 0b0001, _ => .ok (.LegacyEndpoint link link_2)
  | 0b1001, _ => .ok .RootComplexIntegratedEndpoint
  | 0b1010, some root => .ok (.RootComplexEventCollector root)
  | 0b1010, none => .err .RootBytesSlice
  | 0b0100, some root => .ok (.RootPort link link_2 slot slot_2 root)
  | 0b0100, none => .err .RootBytesSlice
  | 0b0101, _ => .ok (.UpstreamPort link link_2)
  | 0b0110, _ => .ok (.DownstreamPort link link_2 slot slot_2)
  | 0b0111, _ => .ok (.PcieToPciBridge link link_2)
  | 0b1000, _ => .ok (.PciToPcieBridge link link_2 slot slot_2)
  | _, some root => .ok (.Reserved device_type link link_2 slot slot_2 (some root))
  | _, none => .ok (.Reserved device_type link link_2 slot slot_2 none)

/-- `slice.get(a..b).and_then(..)` around a body that can only panic or succeed: the pattern of
src/capabilities/pci_express.rs:296-325. -/
def optBlock {α : Type} (slice : Option Bytes) (f : Bytes → Res PciExpressError α) :
    Res PciExpressError (Option α) :=
  match slice with
  | some s => do
    let x ← f s
    return some x
  | none => .ok none

/-- src/capabilities/pci_express.rs:258-339 -/
def PciExpress.ofBytes (slice : Bytes) : Res PciExpressError PciExpress := do
  let required ← Res.okOr .RequiredBytesSlice (getRange slice 0 26)
  let (caps, dev_caps, dev_ctrl, dev_st, link_caps, link_ctrl, link_st, slot_caps, slot_ctrl,
      slot_st) ← BP.arr (do
    let caps ← le16
    let dev_caps ← le32
    let dev_ctrl ← le16
    let dev_st ← le16
    let link_caps ← le32
    let link_ctrl ← le16
    let link_st ← le16
    let slot_caps ← le32
    let slot_ctrl ← le16
    let slot_st ← le16
    return (caps, dev_caps, dev_ctrl, dev_st, link_caps, link_ctrl, link_st, slot_caps, slot_ctrl,
      slot_st)) required
  let (version, device_type, slot_implemented, interrupt_message_number, tcs_routing_support) :=
    (runBits caps do
      let version ← bits 4
      let device_type ← bits 4
      let slot_implemented ← bit
      let interrupt_message_number ← bits 5
      let tcs_routing_support ← bit
      skip 1
      return (version, device_type, slot_implemented, interrupt_message_number,
        tcs_routing_support) : U8 × U8 × Bool × U8 × Bool)
  let device ← Device.new dev_caps dev_ctrl dev_st
  let link ← Link.new link_caps link_ctrl link_st
  let slot ← Slot.new slot_caps slot_ctrl slot_st
  let root ← optBlock (getRange slice 26 34) (BP.arr do
    let root_ctrl ← le16
    let root_caps ← le16
    let root_st ← le32
    return Root.new root_ctrl root_caps root_st)
  let (device_2, link_2, slot_2) ←
    if version.toNat > 1 then do
      let device_2 ← optBlock (getRange slice 34 42) fun s => Res.join (BP.arr (do
        let dev_ctrl ← le32
        let dev_caps ← le16
        let dev_st ← le16
        return Device2.new dev_ctrl dev_caps dev_st) s)
      let link_2 ← optBlock (getRange slice 42 50) fun s => Res.join (BP.arr (do
        let link_caps_2 ← le32
        let link_ctrl_2 ← le16
        let link_st_2 ← le16
        return Link2.new link_caps_2 link_ctrl_2 link_st_2) s)
      let slot_2 ← optBlock (getRange slice 50 58) (BP.arr do
        let slot_caps_2 ← le32
        let slot_ctrl_2 ← le16
        let slot_st_2 ← le16
        return Slot2.new slot_caps_2 slot_ctrl_2 slot_st_2)
      pure (device_2, link_2, slot_2)
    else pure (none, none, none)
  let device_type ← DeviceType.tryFrom device_type link slot root link_2 slot_2
  return { version := version, device_type := device_type, slot_implemented := slot_implemented,
           interrupt_message_number := interrupt_message_number,
           tcs_routing_support := tcs_routing_support, device := device, device_2 := device_2 }

end Pcics.PciExpress
