import Verif.Model.Cap.AcceleratedGraphicsPort
import Verif.Model.Cap.FlatteningPortalBridge
import Verif.Model.Cap.Hypertransport
import Verif.Model.Cap.PciExpress
import Verif.Model.Cap.PciX
import Verif.Model.Cap.PowerManagementInterface
import Verif.Model.Cap.Small
import Verif.Model.Cap.VendorSpecific
/-
Transcriptions of the repository's own unit tests and documentation examples, evaluated by the
kernel against the model.  Tests of the model's fidelity, not proofs of properties.
Each one cites the test or doc example it transcribes.
-/

namespace Pcics.AcceleratedGraphicsPort

/- src/capabilities/accelerated_graphics_port.rs:30-99 -/
example :
    AcceleratedGraphicsPort.ofBytes ([
        0x02, 0x00, 0x33, 0x00, 0b01010001, 0b01011101, 0b00000010, 0x07, 0x51, 0b01011101, 0x55,
        0x55, 0x55, 0x55, 0x55, 0x55, 0x55, 0x55, 0x55, 0x55, 0x55, 0x55, 0x55, 0x55, 0x78, 0x56,
        0x34, 0x12, 0xFF, 0x00, 0x00, 0x00, 0x55, 0x55, 0x55, 0x55, 0x55, 0x55].drop 2)
      = .ok {
        identifier := { minor := 3, major := 3 },
        status := {
          rq := 7, isoch_support := true, reserved := false, arqsz := 2,
          cal_cycle := .CalibrationCycleNotNeeded, sba := false, ita_coh := true,
          gart64b := false, htrans := true, over4g := false, fw := true, agp_3_0_mode := false,
          rate := .Speed4x },
        command := {
          prq := 0x55, parqsz := 2, pcal_cycle := .CalibrationCycleNotNeeded,
          sba_enable := false, agp_enable := true, gart64b := false, over4g := false,
          fw_enable := true, drate := .Speed4x },
        isochronous_status := (some {
          maxbw := 0x55, isoch_n := 0x55, isoch_y := ⟨1⟩, isoch_l := 2,
          isoch_error_code := ⟨1⟩ }),
        control := (some { cal_cycle_dis := false, aperenb := true, gtlben := false }),
        aperture_size := (some ⟨0x5555⟩), enabled_aperture_page_size := (some ⟨0x5555⟩),
        gart_pointer := (some { gartlo := 0x12345678, garthi := 0xff }),
        isochronous_command := (some { pisoch_n := 0x55, pisoch_y := 1 }) } := by decide +kernel

/- src/capabilities/accelerated_graphics_port.rs:551-610 -/
example :
    AcceleratedGraphicsPort.ofBytes ((List.replicate 48 0xff).drop 2)
      = .ok {
        identifier := { minor := 15, major := 15 },
        status := {
          rq := 255, isoch_support := true, reserved := true, arqsz := 7,
          cal_cycle := .CalibrationCycleNotNeeded, sba := true, ita_coh := true,
          gart64b := true, htrans := true, over4g := true, fw := true, agp_3_0_mode := true,
          rate := (.Reserved 7) },
        command := {
          prq := 0xff, parqsz := 7, pcal_cycle := .CalibrationCycleNotNeeded,
          sba_enable := true, agp_enable := true, gart64b := true, over4g := true,
          fw_enable := true, drate := (.Reserved 7) },
        isochronous_status := (some {
          maxbw := 0xff, isoch_n := 0xff, isoch_y := ⟨3⟩, isoch_l := 7,
          isoch_error_code := ⟨3⟩ }),
        control := (some { cal_cycle_dis := true, aperenb := true, gtlben := true }),
        aperture_size := (some ⟨0xffff⟩), enabled_aperture_page_size := (some ⟨0xffff⟩),
        gart_pointer := (some { gartlo := 0xffffffff, garthi := 0xffffffff }),
        isochronous_command := (some { pisoch_n := 0xff, pisoch_y := 3 }) } := by decide +kernel

end Pcics.AcceleratedGraphicsPort

namespace Pcics

/- src/capabilities/advanced_features.rs:19-37 -/
example :
    AdvancedFeatures.ofBytes ([0x13, 0x00, 0x06, 0x03, 0x00, 0x00].drop 2)
      = .ok {
        length := 6,
        capabilities := { transactions_pending := true, function_level_reset := true },
        control := { initiate_flr := false }, status := { transactions_pending := false } } := by decide +kernel

/- src/capabilities/bridge_subsystem_vendor_id.rs:8-20 -/
example :
    BridgeSubsystemVendorId.ofBytes [0x00, 0x00, 0x11, 0x22, 0x33, 0x44]
      = .ok { reserved := 0x0000, subsystem_vendor_id := 0x2211, subsystem_id := 0x4433 } := by decide +kernel

/- src/capabilities/debug_port.rs:8-13 -/
example :
    DebugPort.ofBytes ([0x0a, 0x98, 0xa0, 0x20].drop 2)
      = .ok { offset := 0x00a0, bar_number := 1 } := by decide +kernel

end Pcics

namespace Pcics.FlatteningPortalBridge

/- src/capabilities/flattening_portal_bridge.rs:27-76 -/
example :
    FlatteningPortalBridge.ofBytes ([
        0x15, 0x00, 0x00, 0x00, 0x55, 0x55, 0x55, 0x55, 0x55, 0x55, 0x55, 0x55, 0x55, 0x55, 0x55,
        0x55, 0x55, 0x55, 0x55, 0x55, 0x55, 0x55, 0x55, 0x55, 0x55, 0x55, 0x55, 0x55, 0x55, 0x55,
        0x55, 0x55, 0x67, 0x45, 0x23, 0x01].drop 2)
      = .ok {
        reserved := 0,
        fpb_capabilities := {
          fpb_rid_decode_mechanism_supported := true,
          fpb_mem_low_decode_mechanism_supported := false,
          fpb_mem_high_decode_mechanism_supported := true, fpb_num_sec_dev := 0b1010,
          fpb_rid_vector_size_supported := .Size8kbits,
          fpb_mem_low_vector_size_supported := (.Reserved 5),
          fpb_mem_high_vector_size_supported := .Size8Kbits },
        fpb_rid_vector_control := {
          fpb_rid_decode_mechanism_enable := true,
          fpb_rid_vector_granularity := .Granularity256RIDs, fpb_rid_vector_start := 0x5500,
          rid_secondary_start := (0x5550 >>> 3) },
        fpb_mem_low_vector_control := {
          fpb_mem_low_decode_mechanism_enable := true,
          fpb_mem_low_vector_granularity := (.Reserved 5),
          fpb_mem_low_vector_start := (0x55555555 &&& (0xffffffff <<< 25)) },
        fpb_mem_high_vector_control := {
          fpb_mem_high_decode_mechanism_enable := true,
          fpb_mem_high_vector_granularity := .Granularity8GB,
          fpb_mem_high_vector_start := (0x5555555555555555 &&& (0xffffffffffffffff <<< 33)) },
        fpb_vector_access_control := { fpb_vector_access_offset := 0x55, fpb_vector_select := .MemLow },
        fpb_vector_access_data := 0x1234567 } := by decide +kernel

end Pcics.FlatteningPortalBridge

namespace Pcics.Hypertransport

/- src/capabilities/hypertransport.rs:955-1128 -/
example :
    SlaveOrPrimaryInterface.ofBytes ([
        0x08, 0x54, 0x80, 0x01, 0x20, 0x00, 0x11, 0x11, 0xd0, 0x00, 0x00, 0x00, 0x60, 0x0c, 0x75,
        0x1e, 0x02, 0x00, 0x00, 0x00, 0x00, 0x00, 0x00, 0x00, 0x00, 0x00, 0x00, 0x00].drop 2)
      = .ok {
        command := {
          base_unitid := 0, unit_count := 12, master_host := false, default_direction := false,
          drop_on_uninitialized_link := false },
        link_control_0 := {
          source_id_enable := false, crc_flood_enable := false, crc_start_test := false,
          crc_force_error := false, link_failure := false, initialization_complete := true,
          end_of_chain := false, transmitter_off := false, crc_error := 0,
          isochronous_flow_control_enable := false, ldtstop_tristate_enable := false,
          extended_ctl_time := false, enable_64_bit_addressing := false },
        link_config_0 := {
          max_link_width_in := .Width16bits, doubleword_flow_control_in := false,
          max_link_width_out := .Width16bits, doubleword_flow_control_out := false,
          link_width_in := .Width16bits, doubleword_flow_control_in_enable := false,
          link_width_out := .Width16bits, doubleword_flow_control_out_enable := false },
        link_control_1 := {
          source_id_enable := false, crc_flood_enable := false, crc_start_test := false,
          crc_force_error := false, link_failure := true, initialization_complete := false,
          end_of_chain := true, transmitter_off := true, crc_error := 0,
          isochronous_flow_control_enable := false, ldtstop_tristate_enable := false,
          extended_ctl_time := false, enable_64_bit_addressing := false },
        link_config_1 := {
          max_link_width_in := .Width8bits, doubleword_flow_control_in := false,
          max_link_width_out := .Width8bits, doubleword_flow_control_out := false,
          link_width_in := .Width8bits, doubleword_flow_control_in_enable := false,
          link_width_out := .Width8bits, doubleword_flow_control_out_enable := false },
        revision_id := { minor := 0, major := 3 }, link_freq_0 := 0b1100,
        link_error_0 := {
          protocol_error := false, overflow_error := false, end_of_chain_error := false,
          ctl_timeout := false },
        link_freq_cap_0 := {
          supports_200mhz := true, supports_300mhz := false, supports_400mhz := true,
          supports_500mhz := false, supports_600mhz := true, supports_800mhz := true,
          supports_1000mhz := true, supports_1200mhz := false, supports_1400mhz := false,
          supports_1600mhz := true, supports_1800mhz := true, supports_2000mhz := true,
          supports_2200mhz := true, supports_2400mhz := false, supports_2600mhz := false,
          supports_vendor_specific := false },
        feature := {
          isochronous_flow_control_mode := false, ldtstop := true, crc_test_mode := false,
          extended_ctl_time_required := false, qword_addressing := false,
          unitid_reorder_disable := false, source_identification_extension := false,
          extended_register_set := false, upstream_configuration_enable := false },
        link_freq_1 := 0,
        link_error_1 := {
          protocol_error := false, overflow_error := false, end_of_chain_error := false,
          ctl_timeout := false },
        link_freq_cap_1 := {
          supports_200mhz := false, supports_300mhz := false, supports_400mhz := false,
          supports_500mhz := false, supports_600mhz := false, supports_800mhz := false,
          supports_1000mhz := false, supports_1200mhz := false, supports_1400mhz := false,
          supports_1600mhz := false, supports_1800mhz := false, supports_2000mhz := false,
          supports_2200mhz := false, supports_2400mhz := false, supports_2600mhz := false,
          supports_vendor_specific := false },
        enumeration_scratchpad := 0,
        error_handling := {
          protocol_error_flood_enable := false, overflow_error_flood_enable := false,
          protocol_error_fatal_enable := false, overflow_error_fatal_enable := false,
          end_of_chain_error_fatal_enable := false, response_error_fatal_enable := false,
          crc_error_fatal_enable := false, system_error_fatal_enable := false,
          chain_fail := false, response_error := false,
          protocol_error_nonfatal_enable := false, overflow_error_nonfatal_enable := false,
          end_of_chain_error_nonfatal_enable := false, response_error_nonfatal_enable := false,
          crc_error_nonfatal_enable := false, system_error_nonfatal_enable := false },
        mem_base_upper := 0, mem_limit_upper := 0, bus_number := 0 } := by decide +kernel

/- src/capabilities/hypertransport.rs:1130-1249 -/
example :
    HostOrSecondaryInterface.ofBytes ([
        0x08, 0x00, 0x01, 0x21, 0x20, 0xa0, 0x11, 0x11, 0x60, 0x0c, 0xf5, 0xff, 0x13, 0x00, 0x00,
        0x00, 0xee, 0x02, 0x84, 0x80, 0x00, 0x00, 0x01, 0x00].drop 2)
      = .ok {
        command := {
          warm_reset := true, double_ended := false, device_number := 0, chain_side := false,
          host_hide := true, act_as_slave := false, host_inbound_end_of_chain_error := false,
          drop_on_uninitialized_link := false },
        link_control := {
          source_id_enable := false, crc_flood_enable := false, crc_start_test := false,
          crc_force_error := false, link_failure := false, initialization_complete := true,
          end_of_chain := false, transmitter_off := false, crc_error := 0,
          isochronous_flow_control_enable := false, ldtstop_tristate_enable := true,
          extended_ctl_time := false, enable_64_bit_addressing := true },
        link_config := {
          max_link_width_in := .Width16bits, doubleword_flow_control_in := false,
          max_link_width_out := .Width16bits, doubleword_flow_control_out := false,
          link_width_in := .Width16bits, doubleword_flow_control_in_enable := false,
          link_width_out := .Width16bits, doubleword_flow_control_out_enable := false },
        revision_id := { minor := 0, major := 3 }, link_freq := 0b1100,
        link_error := {
          protocol_error := false, overflow_error := false, end_of_chain_error := false,
          ctl_timeout := false },
        link_freq_cap := {
          supports_200mhz := true, supports_300mhz := false, supports_400mhz := true,
          supports_500mhz := false, supports_600mhz := true, supports_800mhz := true,
          supports_1000mhz := true, supports_1200mhz := true, supports_1400mhz := true,
          supports_1600mhz := true, supports_1800mhz := true, supports_2000mhz := true,
          supports_2200mhz := true, supports_2400mhz := true, supports_2600mhz := true,
          supports_vendor_specific := true },
        feature := {
          isochronous_flow_control_mode := true, ldtstop := true, crc_test_mode := false,
          extended_ctl_time_required := false, qword_addressing := true,
          unitid_reorder_disable := false, source_identification_extension := false,
          extended_register_set := false, upstream_configuration_enable := false },
        enumeration_scratchpad := 0x02ee,
        error_handling := {
          protocol_error_flood_enable := false, overflow_error_flood_enable := false,
          protocol_error_fatal_enable := true, overflow_error_fatal_enable := false,
          end_of_chain_error_fatal_enable := false, response_error_fatal_enable := false,
          crc_error_fatal_enable := false, system_error_fatal_enable := true,
          chain_fail := false, response_error := false,
          protocol_error_nonfatal_enable := false, overflow_error_nonfatal_enable := false,
          end_of_chain_error_nonfatal_enable := false, response_error_nonfatal_enable := false,
          crc_error_nonfatal_enable := false, system_error_nonfatal_enable := true },
        mem_base_upper := 0, mem_limit_upper := 0 } := by decide +kernel

/- src/capabilities/hypertransport.rs:1251-1257 -/
example :
    RevisionId.ofU8 0b00100101
      = { major := 1, minor := 5 } := by decide +kernel

/- src/capabilities/hypertransport.rs:1259-1278 -/
example :
    MsiMapping.ofBytes ([0x08, 0x00, 0x03, 0xa8, 0x00, 0x00, 0x00, 0x00, 0x34, 0x17, 0xda, 0x11].drop 2)
      = .ok {
        enabled := true, fixed := true, base_address_lower := 0,
        base_address_upper := 0x11da1734 } := by decide +kernel

end Pcics.Hypertransport

namespace Pcics.PciExpress

/- src/capabilities/pci_express.rs:116-221 -/
example :
    PciExpress.ofBytes ([
        0x10, 0xc0, 0x51, 0x40, 0x24, 0x80, 0x2c, 0x01, 0x20, 0x01, 0x09, 0x00, 0x41, 0x3c, 0x01,
        0x00, 0x40, 0x00, 0x41, 0x10, 0x00, 0x00, 0x00, 0x00, 0x00, 0x00, 0x00, 0x00].drop 2)
      = .ok {
        version := 1,
        device_type := (.UpstreamPort
          (link := {
                      capabilities := {
                        max_link_speed := .Rate2GTps, maximum_link_width := .X4,
                        active_state_power_management_support := .L0sAndL1,
                        l0s_exit_latency := .Ge256nsAndLt512ns,
                        l1_exit_latency := .Ge2usAndLt4us, clock_power_management := false,
                        surprise_down_error_reporting_capable := false,
                        data_link_layer_link_active_reporting_capable := false,
                        link_bandwidth_notification_capability := false,
                        aspm_optionality_compliance := false, port_number := 0 },
                      control := {
                        active_state_power_management_control := .NoAspm,
                        read_completion_boundary := .B64, link_disable := false,
                        retrain_link := false, common_clock_configuration := true,
                        extended_synch := false, enable_clock_power_management := false,
                        hardware_autonomous_width_disable := false,
                        link_bandwidth_management_interrupt_enable := false,
                        link_autonomous_bandwidth_interrupt_enable := false },
                      status := {
                        current_link_speed := .Rate2GTps, negotiated_link_width := .X4,
                        link_training_error := false, link_training := false,
                        slot_clock_configuration := true, data_link_layer_link_active := false,
                        link_bandwidth_management_status := false,
                        link_autonomous_bandwidth_status := false } })
          (link_2 := none)),
        slot_implemented := false, interrupt_message_number := 0, tcs_routing_support := true,
        device := {
          capabilities := {
            max_payload_size_supported := .B2048, phantom_functions_supported := .NoBits,
            extended_tag_field_supported := .Eight,
            endpoint_l0s_acceptable_latency := .Max64ns,
            endpoint_l1_acceptable_latency := .Max1us, attention_button_present := false,
            attention_indicator_present := false, power_indicator_present := false,
            role_based_error_reporting := true,
            captured_slot_power_limit := { value := 75, scale := 0 },
            function_level_reset_capability := false },
          control := {
            correctable_error_reporting_enable := false,
            non_fatal_error_reporting_enable := false, fatal_error_reporting_enable := false,
            unsupported_request_reporting_enable := false, enable_relaxed_ordering := false,
            max_payload_size := .B256, extended_tag_field_enable := true,
            phantom_functions_enable := false, aux_power_pm_enable := false,
            enable_no_snoop := false, max_read_request_size := .B128, bcre_or_flreset := false },
          status := {
            correctable_error_detected := true, non_fatal_error_detected := false,
            fatal_error_detected := false, unsupported_request_detected := true,
            aux_power_detected := false, transactions_pending := false } },
        device_2 := none } := by decide +kernel

/- src/capabilities/pci_express.rs:2448-2669 -/
example :
    PciExpress.ofBytes ([
        0x10, 0xe0, 0x02, 0x00, 0xc2, 0x8c, 0x00, 0x10, 0x3e, 0x20, 0x09, 0x00, 0x43, 0x5c, 0x42,
        0x00, 0x40, 0x00, 0x43, 0x10, 0x00, 0x00, 0x00, 0x00, 0x00, 0x00, 0x00, 0x00, 0x00, 0x00,
        0x00, 0x00, 0x00, 0x00, 0x00, 0x00, 0x1f, 0x08, 0x00, 0x00, 0x06, 0x00, 0x00, 0x00, 0x0e,
        0x00, 0x00, 0x00, 0x01, 0x00, 0x1f, 0x00, 0x00, 0x00, 0x00, 0x00, 0x00, 0x00, 0x00, 0x00].drop 2)
      = .ok {
        version := 2,
        device_type := (.Endpoint
          (link := {
                      capabilities := {
                        max_link_speed := .Rate8GTps, maximum_link_width := .X4,
                        active_state_power_management_support := .L0sAndL1,
                        l0s_exit_latency := .Ge1usAndLt2us, l1_exit_latency := .Ge8usAndLt16us,
                        clock_power_management := false,
                        surprise_down_error_reporting_capable := false,
                        data_link_layer_link_active_reporting_capable := false,
                        link_bandwidth_notification_capability := false,
                        aspm_optionality_compliance := true, port_number := 0 },
                      control := {
                        active_state_power_management_control := .NoAspm,
                        read_completion_boundary := .B64, link_disable := false,
                        retrain_link := false, common_clock_configuration := true,
                        extended_synch := false, enable_clock_power_management := false,
                        hardware_autonomous_width_disable := false,
                        link_bandwidth_management_interrupt_enable := false,
                        link_autonomous_bandwidth_interrupt_enable := false },
                      status := {
                        current_link_speed := .Rate8GTps, negotiated_link_width := .X4,
                        link_training_error := false, link_training := false,
                        slot_clock_configuration := true, data_link_layer_link_active := false,
                        link_bandwidth_management_status := false,
                        link_autonomous_bandwidth_status := false } })
          (link_2 := (some {
                        capabilities := {
                          lower_skp_os_generation_supported_speeds_vector := {
                            speed_2_5_gtps := false, speed_5_0_gtps := false,
                            speed_8_0_gtps := false, speed_16_0_gtps := false,
                            speed_32_0_gtps := false, speed_64_0_gtps := false,
                            reserved := false },
                          lower_skp_os_reception_supported_speeds_vector := {
                            speed_2_5_gtps := false, speed_5_0_gtps := false,
                            speed_8_0_gtps := false, speed_16_0_gtps := false,
                            speed_32_0_gtps := false, speed_64_0_gtps := false,
                            reserved := false },
                          retimer_presence_detect_supported := false,
                          two_retimers_presence_detect_supported := false,
                          drs_supported := false,
                          supported_link_speeds_vector := {
                            speed_2_5_gtps := true, speed_5_0_gtps := true,
                            speed_8_0_gtps := true, speed_16_0_gtps := false,
                            speed_32_0_gtps := false, speed_64_0_gtps := false,
                            reserved := false },
                          crosslink_supported := false },
                        control := {
                          target_link_speed := .Rate2GTps, enter_compliance := false,
                          hardware_autonomous_speed_disable := false,
                          selectable_de_emphasis := .Minus6dB, transmit_margin := ⟨0⟩,
                          enter_modified_compliance := false, compliance_sos := false,
                          compliance_preset_or_de_emphasis := ⟨0⟩ },
                        status := {
                          current_de_emphasis_level := .Minus3_5dB,
                          equalization_complete := true,
                          equalization_phase_1_successful := true,
                          equalization_phase_2_successful := true,
                          equalization_phase_3_successful := true,
                          link_equalization_request := false,
                          retimer_presence_detected := false,
                          two_retimers_presence_detected := false,
                          crosslink_resolution := .NotSupported,
                          downstream_component_presence := .DownNotDetermined,
                          drs_message_received := false } }))),
        slot_implemented := false, interrupt_message_number := 0, tcs_routing_support := false,
        device := {
          capabilities := {
            max_payload_size_supported := .B512, phantom_functions_supported := .NoBits,
            extended_tag_field_supported := .Five,
            endpoint_l0s_acceptable_latency := .Max512ns,
            endpoint_l1_acceptable_latency := .Max64us, attention_button_present := false,
            attention_indicator_present := false, power_indicator_present := false,
            role_based_error_reporting := true,
            captured_slot_power_limit := { value := 0, scale := 0 },
            function_level_reset_capability := true },
          control := {
            correctable_error_reporting_enable := false,
            non_fatal_error_reporting_enable := true, fatal_error_reporting_enable := true,
            unsupported_request_reporting_enable := true, enable_relaxed_ordering := true,
            max_payload_size := .B256, extended_tag_field_enable := false,
            phantom_functions_enable := false, aux_power_pm_enable := false,
            enable_no_snoop := false, max_read_request_size := .B512, bcre_or_flreset := false },
          status := {
            correctable_error_detected := true, non_fatal_error_detected := false,
            fatal_error_detected := false, unsupported_request_detected := true,
            aux_power_detected := false, transactions_pending := false } },
        device_2 := (some {
          capabilities := {
            ln_system_cls := .NotSupported, support_10bit_tag_completer := false,
            support_10bit_tag_requester := false, obff_supported := .NotSupported,
            emergency_power_reduction_supported := .NotSupported,
            emergency_power_reduction_initialization_required := false, frs_supported := false,
            completion_timeout_ranges_supported := .RangesABCD,
            completion_timeout_disable_supported := true, ari_forwarding_supported := false,
            atomic_op_routing_supported := false, u32_atomicop_completer_supported := false,
            u64_atomicop_completer_supported := false, u128_cas_completer_supported := false,
            no_ro_enabled_pr_pr_passing := false, ltr_mechanism_supported := true,
            tph_completer_supported := .NotSupported, extended_fmt_field_supported := false,
            end_end_tlp_prefix_supported := false, max_end_end_tlp_prefixes := .Max4 },
          control := {
            emergency_power_reduction_request := false, enable_10bit_tag_requester := false,
            completion_timeout_value := .RangeB65msTo210ms,
            completion_timeout_disable := false, ari_forwarding_enable := false,
            atomic_op_requester_enable := false, atomic_op_egress_blocking := false,
            ido_request_enable := false, ido_completion_enable := false,
            ltr_mechanism_enable := false, obff_enable := .Disabled,
            end_end_tlp_prefix_blocking := .ForwardingEnabled },
          status := {  } }) } := by decide +kernel

end Pcics.PciExpress

namespace Pcics.PciX

/- src/capabilities/pci_x.rs:45-112 -/
example :
    PciX.ofBytes ([
        0x07, 0x00, 0x24, 0b00100000, 0x21, 0x04, 0xAA, 0xAA, 0xAA, 0xAA, 0xAA, 0xAA, 0x01, 0x00,
        0x00, 0x00, 0x02, 0x00, 0x00, 0x00, 0x03, 0x00, 0x00, 0x00].drop 2)
      = .ok {
        command := {
          uncorrectable_data_error_recovery_enable := false, enable_relaxed_ordering := false,
          maximum_memory_read_byte_count := ⟨1⟩, maximum_outstanding_split_transactions := ⟨2⟩ },
        status := {
          function_number := 1, device_number := 4, bus_number := 4, device_64_bit := false,
          pci_x_133_capable := true, slit_completion_discarded := false,
          unexpected_split_completion := true, device_complexity := .Simple,
          designed_maximum_memory_read_byte_count := ⟨1⟩,
          designed_maximum_outstanding_split_transactions := ⟨5⟩,
          designed_maximum_cumulative_read_size := ⟨2⟩,
          received_split_completion_error_message := true, pci_x_266_capable := false,
          pci_x_533_capable := true },
        ecc := (.Mode1OrMode2
          (control_and_status := {
                                    select_secondary_ecc_registers := false,
                                    error_present_in_other_ecc_register_bank := true,
                                    additional_correctable_ecc_error := false,
                                    additional_uncorrectable_ecc_error := true,
                                    ecc_error_phase := .Second32bits,
                                    ecc_error_corrected := true,
                                    syndrome := {
                                      e0 := false, e1 := true, e2 := false, e3 := true,
                                      e4 := false, e5 := true, e6 := false, e7 := true },
                                    error_first_command := 0xA, error_second_command := 0xA,
                                    error_upper_attributes := 0xA,
                                    ecc_control_update_enable := false,
                                    disable_single_bit_error_correction := false,
                                    ecc_mode := true })
          (first_address := 0x01)
          (second_address := 0x02)
          («attribute» := 0x03)) } := by decide +kernel

/- src/capabilities/pci_x.rs:115-164 -/
example :
    PciXBridge.ofBytes ([
        0x07, 0x00, 0x55, 0x05, 0x55, 0x55, 0x55, 0x55, 0x00, 0x11, 0x22, 0x33, 0x44, 0x55, 0x66,
        0x77].drop 2)
      = .ok {
        secondary_status := {
          device_64_bit := true, pci_x_133_capable := false, slit_completion_discarded := true,
          unexpected_split_completion := false, split_completion_overrun := true,
          split_request_delayed := false, secondary_bus_mode := .Mode1,
          error_protection := .Ecc, secondary_bus_frequency := .Freq66MHz,
          pci_x_266_capable := false, pci_x_533_capable := false },
        bridge_status := {
          function_number := 5, device_number := 10, bus_number := 0x55, device_64_bit := true,
          pci_x_133_capable := false, slit_completion_discarded := true,
          unexpected_split_completion := false, split_completion_overrun := true,
          split_request_delayed := false, device_id_messaging_capable := false,
          pci_x_266_capable := true, pci_x_533_capable := false },
        upstream_split_transaction_control := { split_transaction_capacity := 0x1100, split_transaction_commitment_limit := 0x3322 },
        downstream_split_transaction_control := { split_transaction_capacity := 0x5544, split_transaction_commitment_limit := 0x7766 },
        ecc := .None } := by decide +kernel

end Pcics.PciX

namespace Pcics.PowerManagementInterface

/- src/capabilities/power_management_interface.rs:24-61 -/
example :
    PowerManagementInterface.ofBytes ([0x01, 0x00, 0x03, 0x00, 0x08, 0x00, 0x00, 0x00].drop 2)
      = .ok {
        capabilities := {
          version := 3, pme_clock := false, immediate_readiness_on_return_to_d0 := false,
          device_specific_initialization := false, aux_current := .SelfPowered,
          d1_support := false, d2_support := false,
          pme_support := { d0 := false, d1 := false, d2 := false, d3_hot := false, d3_cold := false } },
        control := {
          power_state := .D0, no_soft_reset := true, pme_enabled := false,
          data_select := .PowerConsumedD0, data_scale := .Unknown, pme_status := false },
        bridge := { reserved := 0, b2_b3 := false, bpcc_enabled := false }, data := 0 } := by decide +kernel

/- src/capabilities/power_management_interface.rs:380-421 -/
example :
    PowerManagementInterface.ofBytes [0x02, 0x7e, 0x00, 0x00, 0x40, 0x00]
      = .ok {
        capabilities := {
          version := 0b10, pme_clock := false, immediate_readiness_on_return_to_d0 := false,
          device_specific_initialization := false, aux_current := .SelfPowered,
          d1_support := true, d2_support := true,
          pme_support := { d0 := true, d1 := true, d2 := true, d3_hot := true, d3_cold := false } },
        control := {
          power_state := .D0, no_soft_reset := false, pme_enabled := false,
          data_select := .PowerConsumedD0, data_scale := .Unknown, pme_status := false },
        bridge := { reserved := 0, b2_b3 := true, bpcc_enabled := false }, data := 0 } := by decide +kernel

end Pcics.PowerManagementInterface

namespace Pcics

/- src/capabilities/sata.rs:16-26 -/
example :
    Sata.ofBytes ([0x12, 0x00, 0x10, 0x00, 0x48, 0x00, 0x00, 0x00].drop 2)
      = .ok { revision := { minor := 0, major := 1 }, bar_offset := ⟨0x04⟩, bar_location := .Bar4 } := by decide +kernel

/- src/capabilities/slot_identification.rs:14-26 -/
example :
    SlotIdentification.ofBytes ([0x04, 0x00, 0x22, 0x02].drop 2)
      = .ok {
        expansion_slot := { expansion_slots_provided := 2, first_in_chassis := true },
        chassis_number := 2 } := by decide +kernel

end Pcics

namespace Pcics.VendorSpecific

/- src/capabilities/vendor_specific.rs:150-171 -/
example :
    Virtio.ofBytes ([
        0x09, 0xa4, 0x14, 0x02, 0x04, 0x00, 0x00, 0x00, 0x00, 0x30, 0x00, 0x00, 0x00, 0x10, 0x00,
        0x00, 0x04, 0x00, 0x00, 0x00].drop 3)
      = .ok (.Notify
        (bar := 4)
        (offset := 0x00003000)
        (size := 0x00001000)
        (multiplier := (some 0x00000004))) := by decide +kernel

end Pcics.VendorSpecific

namespace Pcics

/- src/capabilities/vital_product_data.rs:12-22 -/
example :
    VitalProductData.ofBytes ([0x03, 0x58, 0x8c, 0x81, 0x00, 0x00, 0x00, 0x78].drop 2)
      = .ok { vpd_address := 0x018c, transfer_completed := true, vpd_data := 0x78000000 } := by decide +kernel

end Pcics
