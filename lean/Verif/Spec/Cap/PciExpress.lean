import Verif.Model.Cap.PciExpress
import Verif.Spec
/- Specification of src/capabilities/pci_express.rs: positions and value tables. -/

namespace Pcics.PciExpress
open Spec

/-- Values of `MaxSize`. -/
def MaxSize.spec (c : U8) : MaxSize :=
  pick c [(0, .B128), (1, .B256), (2, .B512), (3, .B1024), (4, .B2048), (5, .B4096),
    (6, .Reserved0)] .Reserved1

/-- Values of `PhantomFunctionsSupported`. -/
def PhantomFunctionsSupported.spec (c : U8) : PhantomFunctionsSupported :=
  pick c [(0, .NoBits), (1, .MostSignificantBit), (2, .TwoMostSignificantBits)] .AllBits

/-- Values of `EndpointL0sAcceptableLatency`. -/
def EndpointL0sAcceptableLatency.spec (c : U8) : EndpointL0sAcceptableLatency :=
  pick c [(0, .Max64ns), (1, .Max128ns), (2, .Max256ns), (3, .Max512ns), (4, .Max1us),
    (5, .Max2us), (6, .Max4us)] .NoLimit

/-- Values of `EndpointL1AcceptableLatency`. -/
def EndpointL1AcceptableLatency.spec (c : U8) : EndpointL1AcceptableLatency :=
  pick c [(0, .Max1us), (1, .Max2us), (2, .Max4us), (3, .Max8us), (4, .Max16us),
    (5, .Max32us), (6, .Max64us)] .NoLimit

/-- Values of `LinkSpeed`. -/
def LinkSpeed.spec (c : U8) : LinkSpeed :=
  pick c [(1, .Rate2GTps), (2, .Rate5GTps), (3, .Rate8GTps), (4, .Rate16GTps),
    (5, .Rate32GTps), (6, .Rate64GTps), (7, .RateRsvdp)] (.Reserved c)

/-- Values of `LinkWidth`. -/
def LinkWidth.spec (c : U8) : LinkWidth :=
  pick c [(1, .X1), (2, .X2), (4, .X4), (8, .X8), (12, .X12), (16, .X16), (32, .X32)]
    (.Reserved c)

/-- Values of `ActiveStatePowerManagement`. -/
def ActiveStatePowerManagement.spec (c : U8) : ActiveStatePowerManagement :=
  pick c [(0, .NoAspm), (1, .L0s), (2, .L1)] .L0sAndL1

/-- Values of `L0sExitLatency`. -/
def L0sExitLatency.spec (c : U8) : L0sExitLatency :=
  pick c [(0, .Lt64ns), (1, .Ge64nsAndLt128ns), (2, .Ge128nsAndLt256ns),
    (3, .Ge256nsAndLt512ns), (4, .Ge512nsAndLt1us), (5, .Ge1usAndLt2us), (6, .Ge2usAndLt4us)]
    .Gt4ns

/-- Values of `L1ExitLatency`. -/
def L1ExitLatency.spec (c : U8) : L1ExitLatency :=
  pick c [(0, .Lt1us), (1, .Ge1usAndLt2us), (2, .Ge2usAndLt4us), (3, .Ge4usAndLt8us),
    (4, .Ge8usAndLt16us), (5, .Ge16usAndLt32us), (6, .Ge32usAndLt64us)] .Gt64ns

/-- Values of `IndicatorControl`. -/
def IndicatorControl.spec (c : U8) : IndicatorControl :=
  pick c [(0, .Reserved), (1, .On), (2, .Blink)] .Off

/-- Values of `CompletionTimeoutRanges`. -/
def CompletionTimeoutRanges.spec (c : U8) : CompletionTimeoutRanges :=
  pick c [(0, .NotSupported), (1, .RangeA), (2, .RangeB), (3, .RangesAB), (6, .RangesBC),
    (7, .RangesABC), (14, .RangesBCD), (15, .RangesABCD)] (.Reserved c)

/-- Values of `TphCompleter`. -/
def TphCompleter.spec (c : U8) : TphCompleter :=
  pick c [(0, .NotSupported), (1, .Tph), (2, .Reserved)] .TphAndExtendedTph

/-- Values of `LnSystemCls`. -/
def LnSystemCls.spec (c : U8) : LnSystemCls :=
  pick c [(0, .NotSupported), (1, .Cachelines64Byte), (2, .Cachelines128Byte)] .Reserved

/-- Values of `Obff`. -/
def Obff.spec (c : U8) : Obff :=
  pick c [(0, .NotSupported), (1, .Message), (2, .Wake)] .WakeAndMessage

/-- Values of `MaxEndEndTlpPrefixes`. -/
def MaxEndEndTlpPrefixes.spec (c : U8) : MaxEndEndTlpPrefixes :=
  pick c [(0, .Max4), (1, .Max1), (2, .Max2)] .Max3

/-- Values of `EmergencyPowerReduction`. -/
def EmergencyPowerReduction.spec (c : U8) : EmergencyPowerReduction :=
  pick c [(0, .NotSupported), (1, .DeviceSpecific), (2, .FormFactorOrDeviceSpecific)]
    .Reserved

/-- Values of `CompletionTimeoutValue`. -/
def CompletionTimeoutValue.spec (c : U8) : CompletionTimeoutValue :=
  pick c [(0, .DefaultRange50usTo50ms), (1, .RangeA50usTo100us), (2, .RangeA1msTo10ms),
    (5, .RangeB16msTo55mss), (6, .RangeB65msTo210ms), (9, .RangeC260msTo900ms),
    (10, .RangeC1000msTo3500ms), (13, .RangeD4sTo13s), (14, .RangeD17sTo64s)] (.Reserved c)

/-- Values of `ObffEnable`. -/
def ObffEnable.spec (c : U8) : ObffEnable :=
  pick c [(0, .Disabled), (1, .MessageSignalingA), (2, .MessageSignalingB)] .WakeSignaling

/-- Values of `CrosslinkResolution`. -/
def CrosslinkResolution.spec (c : U8) : CrosslinkResolution :=
  pick c [(0, .NotSupported), (1, .UpstreamPort), (2, .DownstreamPort)] .NotCompleted

/-- Values of `DownstreamComponentPresence`. -/
def DownstreamComponentPresence.spec (c : U8) : DownstreamComponentPresence :=
  pick c [(0, .DownNotDetermined), (1, .DownNotPresent), (2, .DownPresent), (4, .UpPresent),
    (5, .UpPresentAndDrsReceived)] (.Reserved c)

/-- Values of `TransmitterPreset`. -/
def TransmitterPreset.spec (c : U8) : TransmitterPreset :=
  pick c [(0, .P0), (1, .P1), (2, .P2), (3, .P3), (4, .P4), (5, .P5), (6, .P6), (7, .P7),
    (8, .P8), (9, .P9), (10, .P10)] (.Reserved c)

/-- Values of `ReceiverPresetHint`. -/
def ReceiverPresetHint.spec (c : U8) : ReceiverPresetHint :=
  pick c [(0, .Minus6dB), (1, .Minus7dB), (2, .Minus8dB), (3, .Minus9dB), (4, .Minus10dB),
    (5, .Minus11dB), (6, .Minus12dB)] .Reserved

/-- Values of `ExtendedTagFieldSupported`. -/
def ExtendedTagFieldSupported.spec (b : Bool) : ExtendedTagFieldSupported := cond b .Eight .Five

/-- Slot power limit: scale code `k` means a factor of `10^-k`. -/
def SlotPowerLimit.spec (value scale : U8) : SlotPowerLimit :=
  { value := value, scale := scale.toNat }

/-- Layout of `DeviceCapabilities`. -/
def DeviceCapabilities.spec (w : U32) : DeviceCapabilities :=
  {
    max_payload_size_supported := MaxSize.spec (fld w 0 3),
    phantom_functions_supported := PhantomFunctionsSupported.spec (fld w 3 2),
    extended_tag_field_supported := ExtendedTagFieldSupported.spec (flag w 5),
    endpoint_l0s_acceptable_latency := EndpointL0sAcceptableLatency.spec (fld w 6 3),
    endpoint_l1_acceptable_latency := EndpointL1AcceptableLatency.spec (fld w 9 3),
    attention_button_present := flag w 12, attention_indicator_present := flag w 13,
    power_indicator_present := flag w 14, role_based_error_reporting := flag w 15,
    captured_slot_power_limit := SlotPowerLimit.spec (fld w 18 8) (fld w 26 2),
    function_level_reset_capability := flag w 28 }

/-- Layout of `DeviceControl`. -/
def DeviceControl.spec (w : U16) : DeviceControl :=
  {
    correctable_error_reporting_enable := flag w 0, non_fatal_error_reporting_enable := flag w 1,
    fatal_error_reporting_enable := flag w 2, unsupported_request_reporting_enable := flag w 3,
    enable_relaxed_ordering := flag w 4, max_payload_size := MaxSize.spec (fld w 5 3),
    extended_tag_field_enable := flag w 8, phantom_functions_enable := flag w 9,
    aux_power_pm_enable := flag w 10, enable_no_snoop := flag w 11,
    max_read_request_size := MaxSize.spec (fld w 12 3), bcre_or_flreset := flag w 15 }

/-- Layout of `DeviceStatus`. -/
def DeviceStatus.spec (w : U16) : DeviceStatus :=
  {
    correctable_error_detected := flag w 0, non_fatal_error_detected := flag w 1,
    fatal_error_detected := flag w 2, unsupported_request_detected := flag w 3,
    aux_power_detected := flag w 4, transactions_pending := flag w 5 }

/-- Layout of `LinkCapabilities`. -/
def LinkCapabilities.spec (w : U32) : LinkCapabilities :=
  {
    max_link_speed := LinkSpeed.spec (fld w 0 4),
    maximum_link_width := LinkWidth.spec (fld w 4 6),
    active_state_power_management_support := ActiveStatePowerManagement.spec (fld w 10 2),
    l0s_exit_latency := L0sExitLatency.spec (fld w 12 3),
    l1_exit_latency := L1ExitLatency.spec (fld w 15 3), clock_power_management := flag w 18,
    surprise_down_error_reporting_capable := flag w 19,
    data_link_layer_link_active_reporting_capable := flag w 20,
    link_bandwidth_notification_capability := flag w 21,
    aspm_optionality_compliance := flag w 22, port_number := fld w 24 8 }

/-- Values of `ReadCompletionBoundary`. -/
def ReadCompletionBoundary.spec (b : Bool) : ReadCompletionBoundary := cond b .B128 .B64

/-- Layout of `LinkControl`. -/
def LinkControl.spec (w : U16) : LinkControl :=
  {
    active_state_power_management_control := ActiveStatePowerManagement.spec (fld w 0 2),
    read_completion_boundary := ReadCompletionBoundary.spec (flag w 3), link_disable := flag w 4,
    retrain_link := flag w 5, common_clock_configuration := flag w 6, extended_synch := flag w 7,
    enable_clock_power_management := flag w 8, hardware_autonomous_width_disable := flag w 9,
    link_bandwidth_management_interrupt_enable := flag w 10,
    link_autonomous_bandwidth_interrupt_enable := flag w 11 }

/-- Layout of `LinkStatus`. -/
def LinkStatus.spec (w : U16) : LinkStatus :=
  {
    current_link_speed := LinkSpeed.spec (fld w 0 4),
    negotiated_link_width := LinkWidth.spec (fld w 4 6), link_training_error := flag w 10,
    link_training := flag w 11, slot_clock_configuration := flag w 12,
    data_link_layer_link_active := flag w 13, link_bandwidth_management_status := flag w 14,
    link_autonomous_bandwidth_status := flag w 15 }

/-- Layout of `SlotCapabilities`. -/
def SlotCapabilities.spec (w : U32) : SlotCapabilities :=
  {
    attention_button_present := flag w 0, power_controller_present := flag w 1,
    mrl_sensor_present := flag w 2, attention_indicator_present := flag w 3,
    power_indicator_present := flag w 4, hot_plug_surprise := flag w 5,
    hot_plug_capable := flag w 6,
    slot_power_limit := SlotPowerLimit.spec (fld w 7 8) (fld w 15 2),
    electromechanical_interlock_present := flag w 17, no_command_completed_support := flag w 18,
    physical_slot_number := fld w 19 13 }

/-- Layout of `SlotControl`. -/
def SlotControl.spec (w : U16) : SlotControl :=
  {
    attention_button_pressed_enable := flag w 0, power_fault_detected_enable := flag w 1,
    mrl_sensor_changed_enable := flag w 2, presence_detect_changed_enable := flag w 3,
    command_completed_interrupt_enable := flag w 4, hot_plug_interrupt_enable := flag w 5,
    attention_indicator_control := IndicatorControl.spec (fld w 6 2),
    power_indicator_control := IndicatorControl.spec (fld w 8 2),
    power_controller_control := flag w 10, electromechanical_interlock_control := flag w 11,
    data_link_layer_state_changed_enable := flag w 12 }

/-- Layout of `SlotStatus`. -/
def SlotStatus.spec (w : U16) : SlotStatus :=
  {
    attention_button_pressed := flag w 0, power_fault_detected := flag w 1,
    mrl_sensor_changed := flag w 2, presence_detect_changed := flag w 3,
    command_completed := flag w 4, mrl_sensor_state := flag w 5,
    presence_detect_state := flag w 6, electromechanical_interlock_status := flag w 7,
    data_link_layer_state_changed := flag w 8 }

/-- Layout of `RootControl`. -/
def RootControl.spec (w : U16) : RootControl :=
  {
    system_error_on_correctable_error_enable := flag w 0,
    system_error_on_non_fatal_error_enable := flag w 1,
    system_error_on_fatal_error_enable := flag w 2, pme_interrupt_enable := flag w 3,
    crs_software_visibility_enable := flag w 4 }

/-- Layout of `RootCapabilities`. -/
def RootCapabilities.spec (w : U16) : RootCapabilities :=
  { crs_software_visibility := flag w 0 }

/-- Layout of `RootStatus`. -/
def RootStatus.spec (w : U32) : RootStatus :=
  {
    pme_requester_id := fld w 0 16, pme_status := flag w 16, pme_pending := flag w 17 }

/-- Layout of `DeviceCapabilities2`. -/
def DeviceCapabilities2.spec (w : U32) : DeviceCapabilities2 :=
  {
    completion_timeout_ranges_supported := CompletionTimeoutRanges.spec (fld w 0 4),
    completion_timeout_disable_supported := flag w 4, ari_forwarding_supported := flag w 5,
    atomic_op_routing_supported := flag w 6, u32_atomicop_completer_supported := flag w 7,
    u64_atomicop_completer_supported := flag w 8, u128_cas_completer_supported := flag w 9,
    no_ro_enabled_pr_pr_passing := flag w 10, ltr_mechanism_supported := flag w 11,
    tph_completer_supported := TphCompleter.spec (fld w 12 2),
    ln_system_cls := LnSystemCls.spec (fld w 14 2), support_10bit_tag_completer := flag w 16,
    support_10bit_tag_requester := flag w 17, obff_supported := Obff.spec (fld w 18 2),
    extended_fmt_field_supported := flag w 20, end_end_tlp_prefix_supported := flag w 21,
    max_end_end_tlp_prefixes := MaxEndEndTlpPrefixes.spec (fld w 22 2),
    emergency_power_reduction_supported := EmergencyPowerReduction.spec (fld w 24 2),
    emergency_power_reduction_initialization_required := flag w 26, frs_supported := flag w 31 }

/-- Values of `EndEndTlpPrefixBlocking`. -/
def EndEndTlpPrefixBlocking.spec (b : Bool) : EndEndTlpPrefixBlocking := cond b .ForwardingBlocked .ForwardingEnabled

/-- Layout of `DeviceControl2`. -/
def DeviceControl2.spec (w : U16) : DeviceControl2 :=
  {
    completion_timeout_value := CompletionTimeoutValue.spec (fld w 0 4),
    completion_timeout_disable := flag w 4, ari_forwarding_enable := flag w 5,
    atomic_op_requester_enable := flag w 6, atomic_op_egress_blocking := flag w 7,
    ido_request_enable := flag w 8, ido_completion_enable := flag w 9,
    ltr_mechanism_enable := flag w 10, emergency_power_reduction_request := flag w 11,
    enable_10bit_tag_requester := flag w 12, obff_enable := ObffEnable.spec (fld w 13 2),
    end_end_tlp_prefix_blocking := EndEndTlpPrefixBlocking.spec (flag w 15) }

/-- Layout of `SupportedLinkSpeedsVector`. -/
def SupportedLinkSpeedsVector.spec (w : U8) : SupportedLinkSpeedsVector :=
  {
    speed_2_5_gtps := flag w 0, speed_5_0_gtps := flag w 1, speed_8_0_gtps := flag w 2,
    speed_16_0_gtps := flag w 3, speed_32_0_gtps := flag w 4, speed_64_0_gtps := flag w 5,
    reserved := flag w 6 }

/-- Layout of `LinkCapabilities2`. -/
def LinkCapabilities2.spec (w : U32) : LinkCapabilities2 :=
  {
    supported_link_speeds_vector := SupportedLinkSpeedsVector.spec (fld w 1 7),
    crosslink_supported := flag w 8,
    lower_skp_os_generation_supported_speeds_vector := SupportedLinkSpeedsVector.spec (fld w 9 7),
    lower_skp_os_reception_supported_speeds_vector := SupportedLinkSpeedsVector.spec (fld w 16 7),
    retimer_presence_detect_supported := flag w 23,
    two_retimers_presence_detect_supported := flag w 24, drs_supported := flag w 31 }

/-- Values of `DeEmphasis`. -/
def DeEmphasis.spec (b : Bool) : DeEmphasis := cond b .Minus3_5dB .Minus6dB

/-- Layout of `LinkControl2`. -/
def LinkControl2.spec (w : U16) : LinkControl2 :=
  {
    target_link_speed := LinkSpeed.spec (fld w 0 4), enter_compliance := flag w 4,
    hardware_autonomous_speed_disable := flag w 5,
    selectable_de_emphasis := DeEmphasis.spec (flag w 6),
    transmit_margin := ⟨fld w 7 3⟩, enter_modified_compliance := flag w 10,
    compliance_sos := flag w 11,
    compliance_preset_or_de_emphasis := ⟨fld w 12 4⟩ }

/-- Layout of `LinkStatus2`. -/
def LinkStatus2.spec (w : U16) : LinkStatus2 :=
  {
    current_de_emphasis_level := DeEmphasis.spec (flag w 0), equalization_complete := flag w 1,
    equalization_phase_1_successful := flag w 2, equalization_phase_2_successful := flag w 3,
    equalization_phase_3_successful := flag w 4, link_equalization_request := flag w 5,
    retimer_presence_detected := flag w 6, two_retimers_presence_detected := flag w 7,
    crosslink_resolution := CrosslinkResolution.spec (fld w 8 2),
    downstream_component_presence := DownstreamComponentPresence.spec (fld w 12 3),
    drs_message_received := flag w 15 }

/-! Offsets below are relative to the data after the two-byte capability header: the PCI Express
specification's offsets minus two. -/

def Device.spec (d : Bytes) : Device :=
  { capabilities := .spec (rd32 d 2), control := .spec (rd16 d 6), status := .spec (rd16 d 8) }

def Link.spec (d : Bytes) : Link :=
  { capabilities := .spec (rd32 d 10), control := .spec (rd16 d 14), status := .spec (rd16 d 16) }

def Slot.spec (d : Bytes) : Slot :=
  { capabilities := .spec (rd32 d 18), control := .spec (rd16 d 22), status := .spec (rd16 d 24) }

/-- Root registers: control, capabilities, status. -/
def Root.spec (d : Bytes) : Root :=
  { control := .spec (rd16 d 26), capabilities := .spec (rd16 d 28), status := .spec (rd32 d 30) }

def Device2.spec (d : Bytes) : Device2 :=
  { capabilities := .spec (rd32 d 34), control := .spec (rd16 d 38), status := {} }

def Link2.spec (d : Bytes) : Link2 :=
  { capabilities := .spec (rd32 d 42), control := .spec (rd16 d 46), status := .spec (rd16 d 48) }

/-- The second set of slot registers is a placeholder without fields. -/
def Slot2.spec : Slot2 := { capabilities := {}, control := {}, status := {} }

/-- A register block is present when the data reaches its end. -/
def present {α : Type} (d : Bytes) (stop : Nat) (x : α) : Option α :=
  if stop ≤ d.length then some x else none

/-- The second-generation blocks also need capability version 2 or later. -/
def presentV2 {α : Type} (d : Bytes) (stop : Nat) (x : α) : Option α :=
  if 2 ≤ (fld (rd16 d 0) 0 4 : U8).toNat then present d stop x else none

/-- Device/port types by code; the register blocks each of them carries. -/
def DeviceType.spec (d : Bytes) : DeviceType :=
  let code : U8 := fld (rd16 d 0) 4 4
  let link := Link.spec d
  let link_2 := presentV2 d 50 (Link2.spec d)
  let slot := Slot.spec d
  let slot_2 := presentV2 d 58 Slot2.spec
  pick code [(0, .Endpoint link link_2), (1, .LegacyEndpoint link link_2),
    (4, .RootPort link link_2 slot slot_2 (Root.spec d)), (5, .UpstreamPort link link_2),
    (6, .DownstreamPort link link_2 slot slot_2), (7, .PcieToPciBridge link link_2),
    (8, .PciToPcieBridge link link_2 slot slot_2), (9, .RootComplexIntegratedEndpoint),
    (10, .RootComplexEventCollector (Root.spec d))]
    (.Reserved code link link_2 slot slot_2 (present d 34 (Root.spec d)))

def PciExpress.spec (d : Bytes) : PciExpress :=
  { version := fld (rd16 d 0) 0 4
    device_type := .spec d
    slot_implemented := flag (rd16 d 0) 8
    interrupt_message_number := fld (rd16 d 0) 9 5
    tcs_routing_support := flag (rd16 d 0) 14
    device := .spec d
    device_2 := presentV2 d 42 (Device2.spec d) }

/-- Root ports (4) and root complex event collectors (10) must have the root registers. -/
def needsRoot (d : Bytes) : Bool :=
  pick (fld (rd16 d 0) 4 4 : U8) [(4, true), (10, true)] false

end Pcics.PciExpress
