import Verif.Model.Ext.AddressTranslationServices
import Verif.Model.Ext.AdvancedErrorReporting
import Verif.Model.Ext.AlternativeRoutingIdInterpolation
import Verif.Model.Ext.ConfigurationAccessCorrelation
import Verif.Model.Ext.DesignatedVendorSpecificExtendedCapability
import Verif.Model.Ext.DeviceSerialNumber
import Verif.Model.Ext.DownstreamPortContainment
import Verif.Model.Ext.DynamicPowerAllocation
import Verif.Model.Ext.FrsQueuing
import Verif.Model.Ext.L1PmSubstates
import Verif.Model.Ext.LatencyToleranceReporting
import Verif.Model.Ext.LnRequester
import Verif.Model.Ext.Multicast
import Verif.Model.Ext.PageRequestInterface
import Verif.Model.Ext.PciExpressOverMphy
import Verif.Model.Ext.PowerBudgeting
import Verif.Model.Ext.PrecisionTimeMeasurement
import Verif.Model.Ext.ProcessAddressSpaceId
import Verif.Model.Ext.ReadinessTimeReporting
import Verif.Model.Ext.RootComplexEventCollectorEndpointAssociation
import Verif.Model.Ext.RootComplexInternalLinkControl
import Verif.Model.Ext.RootComplexLinkDeclaration
import Verif.Model.Ext.RootComplexRegisterBlockHeader
import Verif.Model.Ext.TphRequester
import Verif.Model.Ext.VendorSpecificExtendedCapability
import Verif.Model.Ext.VirtualChannel
/-
Transcriptions of the repository's own unit tests and documentation examples, evaluated by the
kernel against the model.  Tests of the model's fidelity, not proofs of properties.
Each one cites the test or doc example it transcribes.
-/

namespace Pcics.AddressTranslationServices

/- src/extended_capabilities/address_translation_services.rs:14-32 -/
example :
    AddressTranslationServices.ofBytes ([0x0f, 0x00, 0x00, 0x00, 0x24, 0x00, 0x02, 0x00].drop 4)
      = .ok {
        ats_capability := {
          invalidate_queue_depth := 4, page_aligned_request := true,
          global_invalidate_supported := false },
        ats_control := { smallest_translation_unit := 2, enable := false } } := by decide +kernel

end Pcics.AddressTranslationServices

namespace Pcics.AdvancedErrorReporting

/- src/extended_capabilities/advanced_error_reporting.rs:38-167 -/
example :
    AdvancedErrorReporting.ofBytes ([
        0x01, 0x00, 0x01, 0x14, 0x00, 0x00, 0x00, 0x00, 0x00, 0x00, 0x31, 0x00, 0x11, 0xd0, 0x06,
        0x00, 0x00, 0x00, 0x00, 0x00, 0xc1, 0x31, 0x00, 0x00, 0x00, 0x00, 0x00, 0x00, 0x00, 0x00,
        0x00, 0x00, 0x00, 0x00, 0x00, 0x00, 0x00, 0x00, 0x00, 0x00, 0x00, 0x00, 0x00, 0x00, 0x00,
        0x00, 0x00, 0x00, 0x00, 0x00, 0x00, 0x00, 0x00, 0x00, 0x00, 0x00, 0x00, 0x00, 0x00, 0x00,
        0x00, 0x00, 0x00, 0x00].drop 4)
      = .ok {
        uncorrectable_error_status := {
          link_training_error := false, data_link_protocol_error_status := false,
          surprise_down_error_status := false, poisoned_tlp_received_status := false,
          flow_control_protocol_error_status := false, completion_timeout_status := false,
          completer_abort_status := false, unexpected_completion_status := false,
          receiver_overflow_status := false, malformed_tlp_status := false,
          ecrc_error_status := false, unsupported_request_error_status := false,
          acs_violation_status := false, uncorrectable_internal_error_status := false,
          mc_blocked_tlp_status := false, atomicop_egress_blocked_status := false,
          tlp_prefix_blocked_error_status := false,
          poisoned_tlp_egress_blocked_status := false },
        uncorrectable_error_mask := {
          link_training_error := false, data_link_protocol_error_status := false,
          surprise_down_error_status := false, poisoned_tlp_received_status := false,
          flow_control_protocol_error_status := false, completion_timeout_status := false,
          completer_abort_status := false, unexpected_completion_status := true,
          receiver_overflow_status := false, malformed_tlp_status := false,
          ecrc_error_status := false, unsupported_request_error_status := true,
          acs_violation_status := true, uncorrectable_internal_error_status := false,
          mc_blocked_tlp_status := false, atomicop_egress_blocked_status := false,
          tlp_prefix_blocked_error_status := false,
          poisoned_tlp_egress_blocked_status := false },
        uncorrectable_error_severity := {
          link_training_error := true, data_link_protocol_error_status := true,
          surprise_down_error_status := false, poisoned_tlp_received_status := true,
          flow_control_protocol_error_status := false, completion_timeout_status := true,
          completer_abort_status := true, unexpected_completion_status := false,
          receiver_overflow_status := true, malformed_tlp_status := true,
          ecrc_error_status := false, unsupported_request_error_status := false,
          acs_violation_status := false, uncorrectable_internal_error_status := false,
          mc_blocked_tlp_status := false, atomicop_egress_blocked_status := false,
          tlp_prefix_blocked_error_status := false,
          poisoned_tlp_egress_blocked_status := false },
        correctable_error_status := {
          receiver_error_status := false, bad_tlp_status := false, bad_dllp_status := false,
          replay_num_rollover_status := false, replay_timer_timeout_status := false,
          advisory_non_fatal_error_status := false, corrected_internal_error_status := false,
          header_log_overflow_status := false },
        correctable_error_mask := {
          receiver_error_status := true, bad_tlp_status := true, bad_dllp_status := true,
          replay_num_rollover_status := true, replay_timer_timeout_status := true,
          advisory_non_fatal_error_status := true, corrected_internal_error_status := false,
          header_log_overflow_status := false },
        advanced_error_capabilities_and_control := {
          first_error_pointer := 0x00, ecrc_generation_capable := false,
          ecrc_generation_enable := false, ecrc_check_capable := false,
          ecrc_check_enable := false, multiple_header_recording_capable := false,
          multiple_header_recording_enable := false, tlp_prefix_log_present := false,
          completion_timeout_prefix_or_header_log_capable := false },
        header_log := ⟨[0x00, 0x00, 0x00, 0x00]⟩,
        root_error_command := (some {
          correctable_error_reporting_enable := false,
          non_fatal_error_reporting_enable := false, fatal_error_reporting_enable := false }),
        root_error_status := (some {
          err_cor_received := false, multiple_err_cor_received := false,
          err_fatal_or_nonfatal_received := false,
          multiple_err_fatal_or_nonfatal_received := false, first_uncorrectable_fatal := false,
          non_fatal_error_messages_received := false, fatal_error_messages_received := false,
          advanced_error_interrupt_message_number := 0x00 }),
        error_source_identification := (some {
          err_cor_source_identification := 0x00,
          err_fatal_or_nonfatal_source_identification := 0x00 }),
        tlp_prefix_log := none } := by decide +kernel

/- src/extended_capabilities/advanced_error_reporting.rs:583-608 -/
example :
    UncorrectableError.ofU32 (u32le 0x11 0x00 0x06 0x00)
      = {
        link_training_error := true, data_link_protocol_error_status := true,
        surprise_down_error_status := false, poisoned_tlp_received_status := false,
        flow_control_protocol_error_status := false, completion_timeout_status := false,
        completer_abort_status := false, unexpected_completion_status := false,
        receiver_overflow_status := true, malformed_tlp_status := true,
        ecrc_error_status := false, unsupported_request_error_status := false,
        acs_violation_status := false, uncorrectable_internal_error_status := false,
        mc_blocked_tlp_status := false, atomicop_egress_blocked_status := false,
        tlp_prefix_blocked_error_status := false, poisoned_tlp_egress_blocked_status := false } := by decide +kernel

/- src/extended_capabilities/advanced_error_reporting.rs:610-625 -/
example :
    CorrectableError.ofU32 (u32le 0x00 0x20 0x00 0x00)
      = {
        receiver_error_status := false, bad_tlp_status := false, bad_dllp_status := false,
        replay_num_rollover_status := false, replay_timer_timeout_status := false,
        advisory_non_fatal_error_status := true, corrected_internal_error_status := false,
        header_log_overflow_status := false } := by decide +kernel

/- src/extended_capabilities/advanced_error_reporting.rs:627-644 -/
example :
    AdvancedErrorCapabilitiesAndControl.ofU32 (u32le 0x00 0x00 0x00 0x00)
      = {
        first_error_pointer := 0, ecrc_generation_capable := false,
        ecrc_generation_enable := false, ecrc_check_capable := false,
        ecrc_check_enable := false, multiple_header_recording_capable := false,
        multiple_header_recording_enable := false, tlp_prefix_log_present := false,
        completion_timeout_prefix_or_header_log_capable := false } := by decide +kernel

/- src/extended_capabilities/advanced_error_reporting.rs:646-656 -/
example :
    RootErrorCommand.ofU32 (u32le 0x07 0x00 0x00 0x00)
      = {
        correctable_error_reporting_enable := true, non_fatal_error_reporting_enable := true,
        fatal_error_reporting_enable := true } := by decide +kernel

/- src/extended_capabilities/advanced_error_reporting.rs:658-674 -/
example :
    RootErrorStatus.ofU32 (u32le 0x00 0x00 0x00 0x00)
      = {
        err_cor_received := false, multiple_err_cor_received := false,
        err_fatal_or_nonfatal_received := false,
        multiple_err_fatal_or_nonfatal_received := false, first_uncorrectable_fatal := false,
        non_fatal_error_messages_received := false, fatal_error_messages_received := false,
        advanced_error_interrupt_message_number := 0 } := by decide +kernel

end Pcics.AdvancedErrorReporting

namespace Pcics.AlternativeRoutingIdInterpolation

/- src/extended_capabilities/alternative_routing_id_interpolation.rs:22-41 -/
example :
    AlternativeRoutingIdInterpretation.ofBytes ([0x0e, 0x00, 0x01, 0x16, 0x00, 0x01, 0x00, 0x00].drop 4)
      = .ok {
        ari_capability := {
          mfvc_function_groups_capability := false, acs_function_groups_capability := false,
          next_function_number := 1 },
        ari_control := {
          mfvc_function_groups_enable := false, acs_function_groups_enable := false,
          function_group := 0 } } := by decide +kernel

end Pcics.AlternativeRoutingIdInterpolation

namespace Pcics.ConfigurationAccessCorrelation

/- src/extended_capabilities/configuration_access_correlation.rs:14-28 -/
example :
    ConfigurationAccessCorrelation.ofBytes [0x0c, 0x00, 0x01, 0x00, 0x00, 0x11, 0x22, 0x33]
      = .ok { device_correlation := 0x33221100 } := by decide +kernel

end Pcics.ConfigurationAccessCorrelation

namespace Pcics.DesignatedVendorSpecificExtendedCapability

/- src/extended_capabilities/designated_vendor_specific_extended_capability.rs:17-38 -/
example :
    DesignatedVendorSpecificExtendedCapability.ofBytes [0x23, 0x00, 0x01, 0x00, 0x86, 0x80, 0x02, 0x01, 0x23, 0x00, 0x00, 0x11, 0x22, 0x33, 0x44, 0x55]
      = .ok {
        dvsec_vendor_id := 0x8086, dvsec_revision := 2, dvsec_length := 0x10, dvsec_id := 0x23,
        dvsec_type := (.Unspecified [0x00, 0x11, 0x22, 0x33, 0x44, 0x55]) } := by decide +kernel

end Pcics.DesignatedVendorSpecificExtendedCapability

namespace Pcics.DeviceSerialNumber

/- src/extended_capabilities/device_serial_number.rs:13-24 -/
example :
    DeviceSerialNumber.ofBytes ([0x03, 0x00, 0x00, 0x00, 0x11, 0x22, 0x33, 0x44, 0x55, 0x66, 0x77, 0x88].drop 4)
      = .ok { lower_dword := 0x44332211, upper_dword := 0x88776655 } := by decide +kernel

end Pcics.DeviceSerialNumber

namespace Pcics.DownstreamPortContainment

/- src/extended_capabilities/downstream_port_containment.rs:28-140 -/
example :
    DownstreamPortContainment.ofBytes ([
        0x1d, 0x00, 0x01, 0x00, 0xe0, 0x17, 0x00, 0x00, 0x00, 0x1f, 0x00, 0x00, 0x01, 0x00, 0x00,
        0x00, 0x07, 0x07, 0x07, 0x00, 0x00, 0x00, 0x00, 0x00, 0x00, 0x00, 0x00, 0x00, 0x00, 0x00,
        0x00, 0x00, 0x01, 0x00, 0x00, 0x00, 0x02, 0x00, 0x00, 0x00, 0x03, 0x00, 0x00, 0x00, 0x04,
        0x00, 0x00, 0x00, 0x42, 0x00, 0x00, 0x00, 0x11, 0x00, 0x00, 0x00, 0x22, 0x00, 0x00, 0x00,
        0x33, 0x00, 0x00, 0x00].drop 4)
      = .ok {
        dpc_capability := {
          dpc_interrupt_message_number := 0, rp_extensions_for_dpc := true,
          poisoned_tlp_egress_blocking_supported := true,
          dpc_software_triggering_supported := true, rp_pio_log_size := 7,
          dl_active_err_cor_signaling_supported := true },
        dpc_control := {
          dpc_trigger_enable := .Disabled, dpc_completion_control := false,
          dpc_interrupt_enable := false, dpc_err_cor_enable := false,
          poisoned_tlp_egress_blocking_enable := false, dpc_software_trigger := false,
          dl_active_err_cor_enable := false },
        dpc_status := {
          dpc_trigger_status := false, dpc_trigger_reason := .UnmaskedUncorrectableError,
          dpc_interrupt_status := false, dpc_rp_busy := false,
          rp_pio_first_error_pointer := 0x1f },
        dpc_error_source_id := 0,
        rp_extensions := (some {
          rp_pio_status := {
            cfg_ur_cpl := true, cfg_ca_cpl := false, cfg_cto := false, io_ur_cpl := false,
            io_ca_cpl := false, io_cto := false, mem_ur_cpl := false, mem_ca_cpl := false,
            mem_cto := false },
          rp_pio_mask := {
            cfg_ur_cpl := true, cfg_ca_cpl := true, cfg_cto := true, io_ur_cpl := true,
            io_ca_cpl := true, io_cto := true, mem_ur_cpl := true, mem_ca_cpl := true,
            mem_cto := true },
          rp_pio_severity := {
            cfg_ur_cpl := false, cfg_ca_cpl := false, cfg_cto := false, io_ur_cpl := false,
            io_ca_cpl := false, io_cto := false, mem_ur_cpl := false, mem_ca_cpl := false,
            mem_cto := false },
          rp_pio_syserr := {
            cfg_ur_cpl := false, cfg_ca_cpl := false, cfg_cto := false, io_ur_cpl := false,
            io_ca_cpl := false, io_cto := false, mem_ur_cpl := false, mem_ca_cpl := false,
            mem_cto := false },
          rp_pio_exception := {
            cfg_ur_cpl := false, cfg_ca_cpl := false, cfg_cto := false, io_ur_cpl := false,
            io_ca_cpl := false, io_cto := false, mem_ur_cpl := false, mem_ca_cpl := false,
            mem_cto := false },
          rp_pio_header_log := ⟨[0x01, 0x02, 0x03, 0x04]⟩, rp_pio_impspec_log := (some 0x42),
          rp_pio_tlp_prefix_log := (some ⟨[0x11, 0x22, 0x00, 0x00]⟩) }) } := by decide +kernel

end Pcics.DownstreamPortContainment

namespace Pcics.DynamicPowerAllocation

/- src/extended_capabilities/dynamic_power_allocation.rs:23-56 -/
example :
    DynamicPowerAllocation.ofBytes [0x0c, 0x00, 0x01, 0x00, 0x03, 0x22, 0x55, 0xAA, 0x00, 0x11, 0x22, 0x33, 0x03, 0x01, 0x03, 0x00, 0x00, 0x11, 0x22, 0x33]
      = .ok {
        dpa_capability := {
          substate_max := 3, transition_latency_unit := .Unit100ms,
          power_allocation_scale := .Mul0_1, transition_latency_value_0 := 0x55,
          transition_latency_value_1 := 0xAA },
        dpa_latency_indicator := 0x33221100,
        dpa_status := { substate_status := 3, substate_control_enabled := true },
        dpa_control := { substate_control := 3 },
        dpa_power_allocation_array := ⟨[0x00, 0x11, 0x22, 0x33]⟩ } := by decide +kernel

end Pcics.DynamicPowerAllocation

namespace Pcics.FrsQueuing

/- src/extended_capabilities/frs_queuing.rs:18-50 -/
example :
    FrsQueuing.ofBytes [0x21, 0x00, 0x01, 0x00, 0x55, 0x00, 0x06, 0x00, 0x01, 0x00, 0x00, 0x00, 0x01, 0x80, 0x0C, 0x0C]
      = .ok {
        frs_queuing_capability := { frs_queue_max_depth := 0x55, frs_interrupt_message_number := 6 },
        frs_queuing_status := { frs_message_received := true, frs_message_overflow := false },
        frs_queuing_control := { frs_interrupt_enable := false },
        frs_message_queue := {
          frs_message_queue_function_id := 0x8001, frs_message_queue_reason := 0xC,
          frs_message_queue_depth := 0xC0 } } := by decide +kernel

end Pcics.FrsQueuing

namespace Pcics.L1PmSubstates

/- src/extended_capabilities/l1_pm_substates.rs:27-59 -/
example :
    L1PmSubstates.ofBytes ([
        0x1e, 0x00, 0x01, 0x22, 0x1f, 0x28, 0xb0, 0x00, 0x0f, 0xff, 0x50, 0x40, 0xb0, 0x00, 0x00,
        0x00].drop 4)
      = .ok {
        l1_pm_substates_capabilities := {
          pci_pm_l1_2_supported := true, pci_pm_l1_1_supported := true,
          aspm_l1_2_supported := true, aspm_l1_1_supported := true,
          l1_pm_substates_supported := true, port_common_mode_restore_time := 40,
          port_t_power_on := { value := 22, scale := .Time2us } },
        l1_pm_substates_control_1 := {
          pci_pm_l1_2_enable := true, pci_pm_l1_1_enable := true, aspm_l1_2_enable := true,
          aspm_l1_1_enable := true, common_mode_restore_time := 255,
          ltr_l1_2_threshold := { value := 80, scale := 2 } },
        l1_pm_substates_control_2 := { t_power_on := { value := 22, scale := .Time2us } } } := by decide +kernel

end Pcics.L1PmSubstates

namespace Pcics.LatencyToleranceReporting

/- src/extended_capabilities/latency_tolerance_reporting.rs:19-30 -/
example :
    LatencyToleranceReporting.ofBytes ([0x18, 0x00, 0x01, 0x1d, 0x46, 0x08, 0x46, 0x08].drop 4)
      = .ok {
        max_snoop_latency := { value := 70, scale := 2 },
        max_no_snoop_latency := { value := 70, scale := 2 } } := by decide +kernel

end Pcics.LatencyToleranceReporting

namespace Pcics.LnRequester

/- src/extended_capabilities/ln_requester.rs:15-39 -/
example :
    LnRequester.ofBytes [0x1C, 0x00, 0x01, 0x00, 0x01, 0x13, 0x01, 0x13]
      = .ok {
        lnr_capability := { lnr_64_supported := true, lnr_128_supported := false, lnr_registration_max := 0x13 },
        lnr_control := { lnr_enable := true, lnr_cls := false, lnr_registration_limit := 0x13 } } := by decide +kernel

end Pcics.LnRequester

namespace Pcics.Multicast

/- src/extended_capabilities/multicast.rs:18-57 -/
example :
    Multicast.ofBytes [0x0c, 0x00, 0x01, 0x00, 0x2a, 0x8f, 0x20, 0x80, 0x0f, 0x10, 0x20, 0x30, 0x40, 0x50, 0x60, 0x70, 0x00, 0x00, 0x00, 0x00, 0x11, 0x11, 0x11, 0x11, 0x22, 0x22, 0x22, 0x22, 0x33, 0x33, 0x33, 0x33, 0x44, 0x44, 0x44, 0x44, 0x55, 0x55, 0x55, 0x55, 0x0a, 0x11, 0x22, 0x33, 0x44, 0x55, 0x66, 0x77]
      = .ok {
        multicast_capability := {
          mc_max_group := 42, mc_window_size_requested := 0x0f,
          mc_ecrc_regeneration_supported := true },
        multicast_control := { mc_num_group := 32, mc_enable := true },
        mc_base_address := { mc_index_position := 15, mc_base_address := 0x7060504030201000 },
        mc_receive := 0x1111111100000000, mc_block_all := 0x3333333322222222,
        mc_block_untranslated := 0x5555555544444444,
        mc_overlay_bar := (some { mc_overlay_size := 10, mc_overlay_bar := 0x7766554433221100 }) } := by decide +kernel

end Pcics.Multicast

namespace Pcics.PageRequestInterface

/- src/extended_capabilities/page_request_interface.rs:15-37 -/
example :
    PageRequestInterface.ofBytes ([
        0x13, 0x00, 0x00, 0x00, 0x01, 0x01, 0x01, 0x01, 0x01, 0x01, 0x01, 0x01, 0x01, 0x01, 0x01,
        0x01].drop 4)
      = .ok {
        page_request_control := { enable := true, reset := false },
        page_request_status := {
          response_failure := true, unexpected_page_request_group_index := false,
          stopped := true, prg_response_pasid_required := false },
        outstanding_page_request_capacity := 0x01010101,
        outstanding_page_request_allocation := 0x01010101 } := by decide +kernel

end Pcics.PageRequestInterface

namespace Pcics.PciExpressOverMphy

/- src/extended_capabilities/pci_express_over_m_phy.rs:24-96 -/
example :
    PciExpressOverMphy.ofBytes [0x20, 0x00, 0x01, 0x00, 0x01, 0x80, 0x0f, 0x0f, 0x01, 0x00, 0x00, 0x00, 0x01, 0x80, 0x0C, 0x0C, 0x00, 0x11, 0x22, 0x33, 0x55, 0x00, 0x0A, 0xC1, 0x13, 0x00, 0x00, 0x40]
      = .ok {
        mpcie_capabilities := {
          mpcie_link_speed_capability := { hs_g1 := true, hs_g2 := false },
          configuration_software_supported := true,
          maximum_tx_lane_width_capability := {
            x1 := true, x2 := true, x4 := true, x8 := true, x12 := false, x16 := false,
            x32 := false },
          maximum_rx_lane_width_capability := {
            x1 := true, x2 := true, x4 := true, x8 := true, x12 := false, x16 := false,
            x32 := false } },
        mpcie_control := { mpcie_target_link_speed_control := { hs_g1 := true, hs_g2 := false } },
        mpcie_status := {
          mpcie_current_link_speed_status := { hs_g1 := true, hs_g2 := false },
          mpcie_configuration_software_status := true, tx_lane_width_status := .X12,
          rx_lane_width_status := .X12 },
        mpcie_lane_error_status := 0x33221100,
        mpcie_phy_control_address := {
          lower_addr := 0x55, upper_addr := 0x2a, phy_location := .LocalPhy, read := true,
          config := true },
        mpcie_phy_control_data := {
          phy_register_data := 0x13, phy_control_error := false, rrap_abort_a := true,
          phy_control_pending := false } } := by decide +kernel

end Pcics.PciExpressOverMphy

namespace Pcics.PowerBudgeting

/- src/extended_capabilities/power_budgeting.rs:20-42 -/
example :
    PowerBudgeting.ofBytes ([
        0x04, 0x00, 0x01, 0x16, 0x00, 0x00, 0x00, 0x00, 0x1b, 0x81, 0x07, 0x00, 0x01, 0x00, 0x00,
        0x00].drop 4)
      = .ok {
        data_select := 0x00,
        data := {
          base_power := (.Value 0x1b), data_scale := .Deci, pm_sub_state := .Default,
          pm_state := .D0, operation_condition_type := .Maximum, power_rail := .Power3_3v },
        power_budget_capability := { system_allocated := true } } := by decide +kernel

end Pcics.PowerBudgeting

namespace Pcics.PrecisionTimeMeasurement

/- src/extended_capabilities/precision_time_measurement.rs:21-41 -/
example :
    PrecisionTimeMeasurement.ofBytes ([0x1f, 0x00, 0x01, 0x22, 0x06, 0x04, 0x00, 0x00, 0x00, 0x00, 0x00, 0x00].drop 4)
      = .ok {
        ptm_capability := {
          ptm_requester_capable := false, ptm_responder_capable := true,
          ptm_root_capable := true, local_clock_granularity := 4 },
        ptm_control := { ptm_enable := false, root_select := false, effective_granularity := 0x00 } } := by decide +kernel

end Pcics.PrecisionTimeMeasurement

namespace Pcics.ProcessAddressSpaceId

/- src/extended_capabilities/process_address_space_id.rs:14-33 -/
example :
    ProcessAddressSpaceId.ofBytes ([0x1b, 0x00, 0x00, 0x00, 0x02, 0x04, 0x03, 0x00].drop 4)
      = .ok {
        pacid_capability := {
          execute_permission_supported := true, privileged_mode_supported := false,
          max_pasid_width := 0x04 },
        pacid_control := {
          pasid_enable := true, execute_permission_enable := true,
          privileged_mode_enable := false } } := by decide +kernel

end Pcics.ProcessAddressSpaceId

namespace Pcics.ReadinessTimeReporting

/- src/extended_capabilities/readiness_time_reporting.rs:14-45 -/
example :
    ReadinessTimeReporting.ofBytes [0x22, 0x00, 0x01, 0x00, 0x11, 0x22, 0x33, 0x80, 0x44, 0x55, 0x66, 0x00]
      = .ok {
        reset_time := { value := 0x11, scale := 0b001 },
        dl_up_time := { value := (0x32 ||| 0x100), scale := 0b001 }, valid := true,
        flr_time := { value := (0x44 ||| 0x100), scale := 0b010 },
        d3hot_to_d0_time := { value := 0x65, scale := 0b011 } } := by decide +kernel

end Pcics.ReadinessTimeReporting

namespace Pcics.RootComplexEventCollectorEndpointAssociation

/- src/extended_capabilities/root_complex_event_collector_endpoint_association.rs:18-29 -/
example :
    RootComplexEventCollectorEndpointAssociation.ofBytes ([0x07, 0x00, 0x00, 0x00, 0x44, 0x33, 0x22, 0x11].drop 4)
      = .ok { association_bitmap_for_rcieps := 0x11223344 } := by decide +kernel

end Pcics.RootComplexEventCollectorEndpointAssociation

namespace Pcics.RootComplexInternalLinkControl

/- src/extended_capabilities/root_complex_internal_link_control.rs:27-64 -/
example :
    RootComplexInternalLinkControl.ofBytes ([0x06, 0x00, 0x00, 0x00, 0x55, 0x55, 0x55, 0x55, 0x55, 0x55, 0x55, 0x55].drop 4)
      = .ok {
        root_complex_link_capabilities := {
          max_link_speed := .Rate32GTps, maximum_link_width := (.Reserved 0x15),
          active_state_power_management_support := .L0s, l0s_exit_latency := .Ge1usAndLt2us,
          l1_exit_latency := .Ge2usAndLt4us,
          supported_link_speeds_vector := {
            speed_2_5_gtps := true, speed_5_0_gtps := false, speed_8_0_gtps := true,
            speed_16_0_gtps := false, speed_32_0_gtps := true, speed_64_0_gtps := false,
            reserved := true } },
        root_complex_link_control := { active_state_power_management_control := .L0s, extended_synch := false },
        root_complex_link_status := { current_link_speed := .Rate32GTps, negotiated_link_width := (.Reserved 0x15) } } := by decide +kernel

end Pcics.RootComplexInternalLinkControl

namespace Pcics.RootComplexLinkDeclaration

/- src/extended_capabilities/root_complex_link_declaration.rs:430-441 -/
example :
    LinkDescription.ofU32 0b10101010101010100000000000000101
      = {
        link_valid := true, link_type := 0, associate_rcrb_header := true,
        target_component_id := 0xAA, target_port_number := 0xAA } := by decide +kernel

/- src/extended_capabilities/root_complex_link_declaration.rs:443-449 -/
example :
    LinkAddress.new 0 ([0b11111111111111111111000000000000, 0x33221100].getD 0 0) ([0b11111111111111111111000000000000, 0x33221100].getD 1 0)
      = (.MemoryMappedSpace 0x33221100FFFFF000) := by decide +kernel

/- src/extended_capabilities/root_complex_link_declaration.rs:451-465 -/
example :
    LinkAddress.new 1 ([0b11111111010101010101000000000100, 0x33221100].getD 0 0) ([0b11111111010101010101000000000100, 0x33221100].getD 1 0)
      = (.ConfigurationSpace
        (n := 4)
        (reserved := 0)
        (function := 0b101)
        (device := 0b01010)
        (bus := 0b0101)
        (address := 0x33221100FF000000)) := by decide +kernel

/- src/extended_capabilities/root_complex_link_declaration.rs:512-539 -/
example :
    RootComplexLinkDeclaration.ofBytes ([
        0x05, 0x00, 0x01, 0x1c, 0x00, 0x01, 0x01, 0x02, 0x00, 0x00, 0x00, 0x00, 0x00, 0x00, 0x00,
        0x00, 0x01, 0x00, 0x01, 0x00, 0x00, 0x00, 0x00, 0x00, 0x00, 0x90, 0xd1, 0xfe, 0x00, 0x00,
        0x00, 0x00].drop 4)
      = .ok {
        element_self_description := {
          element_type := .ConfigurationSpaceElement, reserved := 0,
          number_of_link_entries := 1, component_id := 0x01, port_number := 0x02 },
        link_entries := (.new ([
          0x05, 0x00, 0x01, 0x1c, 0x00, 0x01, 0x01, 0x02, 0x00, 0x00, 0x00, 0x00, 0x00, 0x00,
          0x00, 0x00, 0x01, 0x00, 0x01, 0x00, 0x00, 0x00, 0x00, 0x00, 0x00, 0x90, 0xd1, 0xfe,
          0x00, 0x00, 0x00, 0x00].drop 0x10) 1) } := by decide +kernel

end Pcics.RootComplexLinkDeclaration

namespace Pcics.RootComplexRegisterBlockHeader

/- src/extended_capabilities/root_complex_register_block_header.rs:17-42 -/
example :
    RootComplexRegisterBlockHeader.ofBytes [0x0a, 0x00, 0x01, 0x00, 0x86, 0x80, 0x34, 0x3e, 0b01, 0x00, 0x00, 0x00, 0b01, 0x00, 0x00, 0x00, 0x00, 0x00, 0x00, 0x00]
      = .ok {
        vendor_id := 0x8086, device_id := 0x3e34,
        rcrb_capabilities := { crs_software_visibility := true },
        rcrb_control := { crs_software_visibility_enable := true } } := by decide +kernel

end Pcics.RootComplexRegisterBlockHeader

namespace Pcics.TphRequester

/- src/extended_capabilities/tph_requester.rs:17-41 -/
example :
    TphRequester.ofBytes ([
        0x17, 0x00, 0x01, 0x1c, 0x05, 0x02, 0x07, 0x00, 0x00, 0x00, 0x00, 0x00, 0x00, 0x00, 0x00,
        0x00, 0x00, 0x00, 0x00, 0x00, 0x00, 0x00, 0x00, 0x00, 0x00, 0x00, 0x00, 0x00].drop 4)
      = .ok {
        tph_requester_capability := {
          no_st_mode_supported := true, interrupt_vector_mode_supported := false,
          device_specific_mode_supported := true, extended_tph_requester_supported := false,
          st_table := (.Valid (size := 0x07) (data := (List.replicate 16 0))) },
        tph_requester_control := { st_mode_select := .NoStMode, tph_requester_enable := .NotPermitted } } := by decide +kernel

end Pcics.TphRequester

namespace Pcics.VendorSpecificExtendedCapability

/- src/extended_capabilities/vendor_specific_extended_capability.rs:18-33 -/
example :
    VendorSpecificExtendedCapability.ofBytes ([0x0b, 0x00, 0x41, 0x14, 0x02, 0x00, 0xc0, 0x00, 0x07, 0x30, 0x00, 0x00].drop 4)
      = .ok {
        header := { vsec_id := 0x0002, vsec_rev := 0, vsec_length := 0x00c },
        registers := (.Valid [0x07, 0x30, 0x00, 0x00]) } := by decide +kernel

end Pcics.VendorSpecificExtendedCapability

namespace Pcics.VirtualChannel

/- src/extended_capabilities/virtual_channel.rs:742-753 -/
example :
    PortVcCapability1.ofU32 0b101010101010
      = {
        extended_vc_count := 2, low_priority_extended_vc_count := 2,
        reference_clock := (.Reserved 2), port_arbitration_table_entry_size := ⟨2⟩ } := by decide +kernel

/- src/extended_capabilities/virtual_channel.rs:755-770 -/
example :
    PortVcCapability2.ofU32 0b1111000000000000000010101010
      = {
        vc_arbitration_capability := {
          hardware_fixed_arbitration := false, wrr_32_phases := true, wrr_64_phases := false,
          wrr_128_phases := true, reserved := 0b1010 },
        vc_arbitration_table_offset := 0xf } := by decide +kernel

/- src/extended_capabilities/virtual_channel.rs:772-781 -/
example :
    PortVcControl.ofU16 0b101
      = { load_vc_arbitration_table := true, vc_arbitration_select := .Wrr64phases } := by decide +kernel

/- src/extended_capabilities/virtual_channel.rs:783-791 -/
example :
    PortVcStatus.ofU16 0b1
      = { vc_arbitration_table_status := true } := by decide +kernel

/- src/extended_capabilities/virtual_channel.rs:793-813 -/
example :
    VcResourceCapability.ofU32 0b10101010010101011100000010101010
      = {
        port_arbitration_capability := {
          hardware_fixed_arbitration := false, wrr_32_phases := true, wrr_64_phases := false,
          wrr_128_phases := true, time_based_wrr_128_phases := false, wrr_256_phases := true,
          reserved := 0b10 },
        advanced_packet_switching := true, reject_snoop_transactions := true,
        maximum_time_slots := 85, port_arbitration_table_offset := 0xAA } := by decide +kernel

/- src/extended_capabilities/virtual_channel.rs:815-827 -/
example :
    VcResourceControl.ofU32 0b10000101000010110000000010101010
      = {
        tc_or_vc_map := 0xAA, load_port_arbitration_table := true,
        port_arbitration_select := .Wrr256phases, vc_id := 5, vc_enable := true } := by decide +kernel

/- src/extended_capabilities/virtual_channel.rs:829-838 -/
example :
    VcResourceStatus.ofU16 0b11
      = { port_arbitration_table_status := true, vc_negotiation_pending := true } := by decide +kernel

end Pcics.VirtualChannel
