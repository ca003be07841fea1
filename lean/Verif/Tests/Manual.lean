import Verif.Model.Capabilities
import Verif.Model.ClassCode
import Verif.Model.Equality
import Verif.Model.ExtendedCapabilities
import Verif.Tests.Dumps
/-
Unit tests and documentation examples of the repository that the script behind
Tests/Capabilities.lean, Tests/ExtendedCapabilities.lean and Tests/Header.lean cannot translate,
transcribed by hand and evaluated by the kernel against the model.  Tests of the model's fidelity,
not proofs of properties.
-/

namespace Pcics

open Tests

/- src/capabilities.rs:514-550 -/
example :
    (match Header.Header.ofBytes config_8086_9dc8 with
      | .ok header =>
        let caps := Capabilities.new ((config_8086_9dc8.take 0x100).drop 0x40) header
        decide ([caps.item 0, caps.item 1, caps.item 2, caps.item 3]
          = [some (((PowerManagementInterface.PowerManagementInterface.ofBytes
                (config_8086_9dc8.drop (0x50 + 2))).map'
                fun v => { pointer := 0x50, kind := .PowerManagementInterface v }).mapErr
                (.Data 0x50)),
              some (((VendorSpecific.VendorSpecific.tryNew (config_8086_9dc8.drop (0x80 + 2))
                header.vendor_id header.device_id).map'
                fun v => { pointer := 0x80, kind := .VendorSpecific v }).mapErr
                (.VendorSpecific 0x80)),
              some (((MessageSignaledInterrups.MessageSignaledInterrups.ofBytes
                (config_8086_9dc8.drop (0x60 + 2))).map'
                fun v => { pointer := 0x60, kind := .MessageSignaledInterrups v }).mapErr
                (.MessageSignaledInterrups 0x60)),
              none]
          ∧ [caps.item 0, caps.item 1, caps.item 2].all
              (fun i => match i with | some (.ok _) => true | _ => false) = true)
      | _ => false) = true := by decide +kernel

/- src/extended_capabilities.rs:922-947 -/
example :
    ((List.range 9).map fun k =>
      ((ExtendedCapabilities.ExtendedCapabilities.new (config_8086_2030.drop 0x100)).item k).map
        fun r => r.map' fun ecap => (ecap.offset, ecap.id))
      = [some (.ok (0x100, 0x000b)), some (.ok (0x110, 0x000d)), some (.ok (0x148, 0x0001)),
          some (.ok (0x1d0, 0x000b)), some (.ok (0x250, 0x0019)), some (.ok (0x280, 0x000b)),
          some (.ok (0x298, 0x000b)), some (.ok (0x300, 0x000b)), none] := by decide +kernel

/- README.md:19-73 (the crate documentation): vendor and device id, the first bridge subsystem
vendor id capability, the first vendor-specific extended capability -/
example :
    (match Header.Header.ofBytes (config_8086_2030.take 0x40) with
      | .ok header =>
        let caps := Capabilities.new ((config_8086_2030.take 0x100).drop 0x40) header
        let ecaps := ExtendedCapabilities.ExtendedCapabilities.new (config_8086_2030.drop 0x100)
        decide ((header.vendor_id, header.device_id) = (0x8086, 0x2030)
        ∧ ((List.range 8).findSome? fun k => match caps.item k with
            | some (.ok { kind := .BridgeSubsystemVendorId ssvid, .. }) =>
              some ssvid.subsystem_vendor_id
            | _ => none) = some 0x8086
        ∧ ((List.range 8).findSome? fun k => match ecaps.item k with
            | some (.ok { kind := .VendorSpecificExtendedCapability vsec, .. }) =>
              some vsec.header.vsec_length
            | _ => none) = some 0x0c)
      | _ => false) = true := by decide +kernel

end Pcics

namespace Pcics.EnhancedAllocation

/- src/capabilities/enhanced_allocation.rs:21-46 -/
example :
    ((EnhancedAllocation.tryNew ([
        0x14, 0x00, 0x01, 0x00, 0b100100, 0x00, 0x42, 0b11000000, (0x00 ||| 0b11), 0x11, 0x22,
        0x33, (0x00 ||| 0b10), 0x11, 0x22, 0x33, 0x44, 0x55, 0x66, 0x77, 0x44, 0x55, 0x66,
        0x77].drop 2) false).map' fun ea => (ea.entries.next false).map' fun r => r.1)
      = .ok (.ok (some {
        entry_size := 4, bar_equivalent_indicator := .Location18h,
        primary_properties := .MemorySpaceNonPrefetchable,
        secondary_properties := (.Reserved 0x42), writable := true, enable := true,
        base := (.U64 0x7766554433221100),
        max_offset := (.U64 (0x7766554433221100 ||| 0b11)) })) := by decide +kernel

end Pcics.EnhancedAllocation

namespace Pcics.Hypertransport

/- src/capabilities/hypertransport.rs:1259-1278 -/
example :
    ((MsiMapping.ofBytes (
        [0x08, 0x00, 0x03, 0xa8, 0x00, 0x00, 0x00, 0x00, 0x34, 0x17, 0xda, 0x11].drop 2)).map'
        fun m => (m, m.base_address))
      = .ok ({
        enabled := true, fixed := true, base_address_lower := 0,
        base_address_upper := 0x11da1734 }, 0x11da173400000000) := by decide +kernel

end Pcics.Hypertransport

namespace Pcics.MessageSignaledInterrups

open Tests

/-- `data[2] = control[0]; data[3] = control[1];` of the four tests -/
def withControl (control : U16) : Bytes :=
  (random_4k.set 2 (control.setWidth 8)).set 3 ((control >>> 8).setWidth 8)

/- src/capabilities/message_signaled_interrups.rs:204-229 -/
example :
    MessageSignaledInterrups.ofBytes ((withControl 0b0_0000_0000).drop 2)
      = .ok {
        message_control := {
          msi_enable := false, multiple_message_capable := ⟨0⟩, multiple_message_enable := ⟨0⟩,
          per_vector_masking_capable := false, a_64_bit_address_capable := false,
          extended_message_data_capable := false, extended_message_data_enable := false },
        message_address := .Dword 0x95f8e4dc, message_data := 0xcb86, mask_bits := none,
        pending_bits := none, extended_message_data := 0x1a87 } := by decide +kernel

/- src/capabilities/message_signaled_interrups.rs:231-256 -/
example :
    MessageSignaledInterrups.ofBytes ((withControl 0b0_1000_0000).drop 2)
      = .ok {
        message_control := {
          msi_enable := false, multiple_message_capable := ⟨0⟩, multiple_message_enable := ⟨0⟩,
          per_vector_masking_capable := false, a_64_bit_address_capable := true,
          extended_message_data_capable := false, extended_message_data_enable := false },
        message_address := .Qword 0x1A87CB8695F8E4DC, message_data := 0x5eb6, mask_bits := none,
        pending_bits := none, extended_message_data := 0x3273 } := by decide +kernel

/- src/capabilities/message_signaled_interrups.rs:258-283 -/
example :
    MessageSignaledInterrups.ofBytes ((withControl 0b1_0000_0000).drop 2)
      = .ok {
        message_control := {
          msi_enable := false, multiple_message_capable := ⟨0⟩, multiple_message_enable := ⟨0⟩,
          per_vector_masking_capable := true, a_64_bit_address_capable := false,
          extended_message_data_capable := false, extended_message_data_enable := false },
        message_address := .Dword 0x95f8e4dc, message_data := 0xcb86,
        mask_bits := some 0x32735EB6, pending_bits := some 0x6AE226D5,
        extended_message_data := 0x1a87 } := by decide +kernel

/- src/capabilities/message_signaled_interrups.rs:285-310 -/
example :
    MessageSignaledInterrups.ofBytes ((withControl 0b1_1000_0000).drop 2)
      = .ok {
        message_control := {
          msi_enable := false, multiple_message_capable := ⟨0⟩, multiple_message_enable := ⟨0⟩,
          per_vector_masking_capable := true, a_64_bit_address_capable := true,
          extended_message_data_capable := false, extended_message_data_enable := false },
        message_address := .Qword 0x1A87CB8695F8E4DC, message_data := 0x5eb6,
        mask_bits := some 0x6AE226D5, pending_bits := some 0x5FFFEED8,
        extended_message_data := 0x3273 } := by decide +kernel

end Pcics.MessageSignaledInterrups

namespace Pcics.PciX

/- src/capabilities/pci_x.rs:884-890 -/
example :
    ((List.range 256).all fun word =>
      match (SecondaryStatus.ofU16 (BitVec.ofNat 16 (word <<< 6)) : Res Unit SecondaryStatus) with
      | .ok ss => ss.secondary_bus_mode_and_frequency
          == (.ok (BitVec.ofNat 8 (word &&& 0b1111)) : Res Unit U8)
      | _ => false) = true := by decide +kernel

end Pcics.PciX

namespace Pcics.AccessControlServices

/- src/extended_capabilities/access_control_services.rs:17-44 -/
example :
    ((AccessControlServices.ofBytes ([0x0d, 0x00, 0x01, 0x00, 0x0f, 0x00, 0x00, 0x00].drop 4)).map'
        fun r => (r.acs_capability, r.acs_control))
      = .ok ({
        acs_source_validation := true, acs_translation_blocking := true,
        acs_p2p_request_redirect := true, acs_p2p_completion_redirect := true,
        acs_upstream_forwarding := false, acs_p2p_egress_control := false,
        acs_direct_translated_p2p := false, egress_control_vector_size := 0 }, {
        acs_source_validation_enable := false, acs_translation_blocking_enable := false,
        acs_p2p_request_redirect_enable := false, acs_p2p_completion_redirect_enable := false,
        acs_upstream_forwarding_enable := false, acs_p2p_egress_control_enable := false,
        acs_direct_translated_p2p_enable := false }) := by decide +kernel

/- src/extended_capabilities/access_control_services.rs:242-258 -/
example :
    takeIter EgressControlVectors.next 100
        (EgressControlVectors.new [0x00, 0x0F, 0xAA, 0xFF, 0x55, 0x00, 0x00, 0x00] 35)
      = ([0, 0, 0, 0, 0, 0, 0, 0, 1, 1, 1, 1, 0, 0, 0, 0, 0, 1, 0, 1, 0, 1, 0, 1, 1, 1, 1, 1, 1,
          1, 1, 1, 1, 0, 1, 0, 1, 0, 1, 0, 0, 0, 0, 0, 0, 0, 0, 0, 0, 0, 0, 0, 0, 0, 0, 0, 0, 0,
          0, 0, 0, 0, 0, 0].take 35).map (fun v => v != 0) := by decide +kernel

end Pcics.AccessControlServices

namespace Pcics.L1PmSubstates

/-- src/extended_capabilities/l1_pm_substates.rs:292-322 -/
def SAMPLE : L1PmSubstates where
  l1_pm_substates_capabilities := {
    pci_pm_l1_2_supported := true, pci_pm_l1_1_supported := true, aspm_l1_2_supported := true,
    aspm_l1_1_supported := true, l1_pm_substates_supported := true,
    port_common_mode_restore_time := 255,
    port_t_power_on := { value := 5, scale := .Time2us } }
  l1_pm_substates_control_1 := {
    pci_pm_l1_2_enable := true, pci_pm_l1_1_enable := true, aspm_l1_2_enable := false,
    aspm_l1_1_enable := false, common_mode_restore_time := 0,
    ltr_l1_2_threshold := { value := 50, scale := 2 } }
  l1_pm_substates_control_2 := { t_power_on := { value := 22, scale := .Time2us } }

/- src/extended_capabilities/l1_pm_substates.rs:324-328 -/
example :
    L1PmSubstates.ofBytes ([
        0x1e, 0x00, 0x81, 0x12, 0x1f, 0xff, 0x28, 0x00, 0x03, 0x00, 0x32, 0x40, 0xb0, 0x00, 0x00,
        0x00].drop 4) = .ok SAMPLE := by decide +kernel

/- src/extended_capabilities/l1_pm_substates.rs:330-337 -/
example : u32le 0x1f 0xff 0x28 0x00 = SAMPLE.l1_pm_substates_capabilities.toU32 := by
  decide +kernel

/- src/extended_capabilities/l1_pm_substates.rs:339-346 -/
example : u32le 0x03 0x00 0x32 0x40 = SAMPLE.l1_pm_substates_control_1.toU32 := by decide +kernel

/- src/extended_capabilities/l1_pm_substates.rs:348-355 -/
example : u32le 0xb0 0x00 0x00 0x00 = SAMPLE.l1_pm_substates_control_2.toU32 := by decide +kernel

end Pcics.L1PmSubstates

namespace Pcics.MultifunctionVirtualChannel

/- src/extended_capabilities/multifunction_virtual_channel.rs:34-112; the comparison of the
`extended_virtual_channels` iterators is that of their items -/
example :
    let data : Bytes := [
      0x08, 0x00, 0x01, 0x00, 0b00000001, 0b100, 0x00, 0x00, 0b1111, 0x00, 0x00, 0x00, 0b0010,
      0x00, 0x00, 0x00, 0b111, 0x00, 0x00, 0x00, 0xff, 0x00, 0x04, 0x80, 0x00, 0x00, 0b10, 0x00]
    let evc : ExtendedVirtualChannel := {
      vc_resource_capability := {
        function_arbitration_capability := {
          hardware_fixed_arbitration := true, wrr_32_phases := true, wrr_64_phases := true,
          wrr_128_phases := false, time_based_wrr_128_phases := false, wrr_256_phases := false,
          reserved := 0 },
        maximum_time_slots := 0, function_arbitration_table_offset := 0 },
      vc_resource_control := {
        tc_to_vc_map := 0xff, load_function_arbitration_table := false,
        function_arbitration_select := .Wrr64phases, vc_id := 0, vc_enable := true },
      vc_resource_status := {
        function_arbitration_table_status := false, vc_negotiation_pending := true },
      function_arbitration_table := none }
    let evcs_sample_data := data.take 0x10 ++ evc.toBytes
    (match MultifunctionVirtualChannel.ofBytes data,
        (ExtendedVirtualChannels.new evcs_sample_data 1 2 : Res Unit ExtendedVirtualChannels) with
      | .ok r, .ok evcs =>
        decide (r.port_vc_capability_1 = {
          extended_vc_count := 1, low_priority_extended_vc_count := 0,
          reference_clock := .Rc100ns, function_arbitration_table_entry_size := ⟨0b01⟩ }
        ∧ r.port_vc_capability_2 = {
          vc_arbitration_capability := {
            hardware_fixed_arbitration := true, wrr_32_phases := true, wrr_64_phases := true,
            wrr_128_phases := true, reserved := 0 },
          vc_arbitration_table_offset := 0 }
        ∧ r.port_vc_control = {
          load_vc_arbitration_table := false, vc_arbitration_select := .Wrr32phases }
        ∧ r.port_vc_status = { vc_arbitration_table_status := false }
        ∧ r.vc_arbitration_table = none
        ∧ takeIter ExtendedVirtualChannels.next 10 r.extended_virtual_channels
          = takeIter ExtendedVirtualChannels.next 10 evcs)
      | _, _ => false) = true := by decide +kernel

/- src/extended_capabilities/multifunction_virtual_channel.rs:651-663 -/
example :
    takeIter FunctionArbitrationTable.next 100
        (FunctionArbitrationTable.new [0b10101010, 0b11001100, 0b11110000, 0xff] 1)
      = (List.range 32).map fun i => ⟨BitVec.ofNat 8 ((i >>> (i / 8)) % 2)⟩ := by decide +kernel

/- src/extended_capabilities/multifunction_virtual_channel.rs:665-685 -/
example :
    takeIter FunctionArbitrationTable.next 100
        (FunctionArbitrationTable.new
          [0x00, 0b01010101, 0b10101010, 0b00110011, 0b11001100, 0b00001111, 0b11110000, 0xff] 2)
      = (List.range 32).map fun i => ⟨
          if i ∈ [4, 5, 6, 7] then 0b01 else if i ∈ [8, 9, 10, 11] then 0b10
          else if i ∈ [12, 14, 17, 19, 20, 21, 26, 27, 28, 29, 30, 31] then 0b11
          else 0b00⟩ := by decide +kernel

/- src/extended_capabilities/multifunction_virtual_channel.rs:687-702 -/
example :
    takeIter FunctionArbitrationTable.next 100
        (FunctionArbitrationTable.new
          [0x00, 0x11, 0x22, 0x33, 0x44, 0x55, 0x66, 0x77, 0x88, 0x99, 0xaa, 0xbb, 0xcc, 0xdd,
            0xee, 0xff] 4)
      = (List.range 32).map fun i => ⟨BitVec.ofNat 8 (i / 2)⟩ := by decide +kernel

/- src/extended_capabilities/multifunction_virtual_channel.rs:704-720 -/
example :
    takeIter FunctionArbitrationTable.next 100
        (FunctionArbitrationTable.new
          [0x00, 0x01, 0x02, 0x03, 0x04, 0x05, 0x06, 0x07, 0x08, 0x09, 0x0a, 0x0b, 0x0c, 0x0d,
            0x0e, 0x0f, 0x00, 0x10, 0x20, 0x30, 0x40, 0x50, 0x60, 0x70, 0x80, 0x90, 0xa0, 0xb0,
            0xc0, 0xd0, 0xe0, 0xf0] 8)
      = (List.range 32).map fun i => ⟨BitVec.ofNat 8 (if i < 16 then i else i <<< 4)⟩ := by
  decide +kernel

/- src/extended_capabilities/multifunction_virtual_channel.rs:722-800 -/
example :
    ((ExtendedVirtualChannels.new [
      0x08, 0x00, 0x01, 0x00, 0b00000001, 0b100, 0x00, 0x00, 0b1111, 0x00, 0x00, 0x00, 0b0010,
      0x00, 0x00, 0x00, 0b111, 0x00, 0x00, 0x04, 0x0f, 0x00, 0x04, 0x80, 0x00, 0x00, 0b10, 0x00,
      0b11000, 0x00, 0x7f, 0x05, 0xf0, 0x00, 0b1000, 0x80, 0x00, 0x00, 0b01, 0x00] 1 0
      : Res Unit ExtendedVirtualChannels).map' (takeIter ExtendedVirtualChannels.next 10))
      = .ok [
      {
        vc_resource_capability := {
          function_arbitration_capability := {
            hardware_fixed_arbitration := true, wrr_32_phases := true, wrr_64_phases := true,
            wrr_128_phases := false, time_based_wrr_128_phases := false,
            wrr_256_phases := false, reserved := 0 },
          maximum_time_slots := 0, function_arbitration_table_offset := (0x40 / 0x10) },
        vc_resource_control := {
          tc_to_vc_map := 0x0f, load_function_arbitration_table := false,
          function_arbitration_select := .Wrr64phases, vc_id := 0, vc_enable := true },
        vc_resource_status := {
          function_arbitration_table_status := false, vc_negotiation_pending := true },
        function_arbitration_table := none },
      {
        vc_resource_capability := {
          function_arbitration_capability := {
            hardware_fixed_arbitration := false, wrr_32_phases := false,
            wrr_64_phases := false, wrr_128_phases := true, time_based_wrr_128_phases := true,
            wrr_256_phases := false, reserved := 0 },
          maximum_time_slots := 0x7f, function_arbitration_table_offset := (0x50 / 0x10) },
        vc_resource_control := {
          tc_to_vc_map := 0xf0, load_function_arbitration_table := false,
          function_arbitration_select := .TimeBasedWrr128phases, vc_id := 0, vc_enable := true },
        vc_resource_status := {
          function_arbitration_table_status := true, vc_negotiation_pending := false },
        function_arbitration_table := none }] := by decide +kernel

end Pcics.MultifunctionVirtualChannel

namespace Pcics.ProtocolMultiplexing

/- src/extended_capabilities/protocol_multiplexing.rs:21-83 -/
example :
    let protocol_array_bytes := ([
      { protocol_id := 0x3412, authority_id := 0x7856 },
      { protocol_id := 0x2211, authority_id := 0x4433 }].map
        PmuxProtocolArrayEntry.toBytes).flatten
    (match ProtocolMultiplexing.ofBytes [
      0x01, 0x00, 0x01, 0x00, 0x02, 0b1100, 0x00, 0x00, 0x01, 0x02, 0x03, 0x04, 0b000, 0b001,
      0b010, 0b100, 0x12, 0x34, 0x56, 0x78, 0x11, 0x22, 0x33, 0x44] with
    | .ok r =>
      decide (r.pmux_capability = {
        pmux_protocol_array_size := 2,
        pmux_supported_link_speeds := {
          speed_2_5_gtps := false, speed_5_0_gtps := false, speed_8_0_gtps := true,
          speed_16_0_gtps := true } }
      ∧ r.pmux_control = {
        pmux_channel_0_assignment := 1, pmux_channel_1_assignment := 2,
        pmux_channel_2_assignment := 3, pmux_channel_3_assignment := 4 }
      ∧ r.pmux_status = {
        pmux_channel_0_disabled_link_speed := false,
        pmux_channel_0_disabled_link_width := false,
        pmux_channel_0_disabled_link_protocol_specific := false,
        pmux_channel_1_disabled_link_speed := true,
        pmux_channel_1_disabled_link_width := false,
        pmux_channel_1_disabled_link_protocol_specific := false,
        pmux_channel_2_disabled_link_speed := false,
        pmux_channel_2_disabled_link_width := true,
        pmux_channel_2_disabled_link_protocol_specific := false,
        pmux_channel_3_disabled_link_speed := false,
        pmux_channel_3_disabled_link_width := false,
        pmux_channel_3_disabled_link_protocol_specific := true }
      ∧ r.pmux_protocol_array.eq (PmuxProtocolArray.new protocol_array_bytes) = true)
    | _ => false) = true := by decide +kernel

end Pcics.ProtocolMultiplexing

namespace Pcics.ResizableBar

/- src/extended_capabilities/resizable_bar.rs:17-72 -/
example :
    ((ResizableBar.ofBytes [
      0x15, 0x00, 0x01, 0x00, 0x00, 0x11, 0x22, 0x44, 0x40, 0x03, 0x24, 0x01, 0x10, 0x20, 0x40,
      0x80, 0x01, 0x0f, 0x10, 0x42]).map' (takeIter ResizableBar.next 10))
      = .ok [
      {
        capability := { support_map_from_1mb_to_128tb := 0x44221100 },
        control := {
          bar_index := 0, number_of_resizable_bars := 2, bar_size := 3,
          support_map_from_256tb_to_8eb := 0x0124 } },
      {
        capability := { support_map_from_1mb_to_128tb := 0x80402010 },
        control := {
          bar_index := 1, number_of_resizable_bars := 0, bar_size := 15,
          support_map_from_256tb_to_8eb := 0x4210 } }] := by decide +kernel

/- src/extended_capabilities/resizable_bar.rs:58-70, the sizes the second entry supports -/
example :
    let second_entry : ResizableBarEntry := {
      capability := { support_map_from_1mb_to_128tb := 0x80402010 },
      control := {
        bar_index := 1, number_of_resizable_bars := 0, bar_size := 15,
        support_map_from_256tb_to_8eb := 0x4210 } }
    (ResizableBarEntry.BAR_SIZES.zipIdx.filterMap fun (s, n) =>
      if second_entry.is_function_supports_power_of_two (n + 20) then some s else none)
      = ["1MB", "512MB", "256GB", "128TB", "4PB", "128PB", "4EB"] := by decide +kernel

end Pcics.ResizableBar

namespace Pcics.RootComplexLinkDeclaration

/- src/extended_capabilities/root_complex_link_declaration.rs:22-57 -/
example :
    ((RootComplexLinkDeclaration.ofBytes ([
      0x05, 0x00, 0x01, 0x1c, 0x00, 0x01, 0x01, 0x03, 0x00, 0x00, 0x00, 0x00, 0x00, 0x00, 0x00,
      0x00, 0x01, 0x00, 0x01, 0x00, 0x00, 0x00, 0x00, 0x00, 0x00, 0x90, 0xd1, 0xfe, 0x00, 0x00,
      0x00, 0x00].drop 4)).map' fun r => r.link_entries.next.map fun p => p.1)
      = .ok (some {
        link_description := {
          target_port_number := 0, target_component_id := 1, associate_rcrb_header := false,
          link_type := 0, link_valid := true },
        link_address := (.MemoryMappedSpace 0xfed19000) }) := by decide +kernel

/- src/extended_capabilities/root_complex_link_declaration.rs:467-482 -/
example :
    (∀ sample ∈ [((0x00 : U32), (0x00 : U32)), (0xaa, 0xaa), (0x55, 0x55), (0x0f, 0x0f),
        (0xf0, 0xf0), (0xff, 0xff)],
      (LinkAddress.new 1 sample.1 sample.2).toDwords = sample) := by decide +kernel

/- src/extended_capabilities/root_complex_link_declaration.rs:484-510 -/
example :
    let le := LinkEntries.new [
      0x01, 0x00, 0x01, 0x00, 0x00, 0x00, 0x00, 0x00, 0x00, 0x90, 0xd1, 0xfe, 0x00, 0x00, 0x00,
      0x00] 1
    le.state = .Valid
    ∧ takeIter LinkEntries.next 10 le = [{
        link_description := {
          link_valid := true, link_type := 0, associate_rcrb_header := false,
          target_component_id := 0x01, target_port_number := 0x00 },
        link_address := (.MemoryMappedSpace 0x00000000fed19000) }] := by decide +kernel

end Pcics.RootComplexLinkDeclaration

namespace Pcics.SecondaryPciExpress

/- src/extended_capabilities/secondary_pci_express.rs:24-53 -/
example :
    ((SecondaryPciExpress.ofBytes ([
      0x19, 0x00, 0x01, 0x28, 0x00, 0x00, 0x00, 0x00, 0x0f, 0x00, 0x00, 0x00, 0x78, 0x27, 0x78,
      0x27, 0x78, 0x27, 0x78, 0x27].drop 4)).map' fun r => (r.link_control_3, r.lane_error_status))
      = .ok ({
        perform_equalization := false, link_equalization_request_interrupt_enable := false,
        lower_skp_os_generation_vector := {
          speed_2_5_gtps := false, speed_5_0_gtps := false, speed_8_0_gtps := false,
          speed_16_0_gtps := false, speed_32_0_gtps := false, speed_64_0_gtps := false,
          reserved := false } }, ⟨0x0f⟩) := by decide +kernel

/-- src/extended_capabilities/secondary_pci_express.rs:222-227 -/
def DATA : Bytes := [
  0x19, 0x00, 0x01, 0x28, 0x00, 0x00, 0x00, 0x00, 0xfb, 0x0c, 0x00, 0x00, 0x77, 0x27, 0x77,
  0x27, 0x77, 0x27, 0x77, 0x27, 0x77, 0x27, 0x77, 0x27, 0x77, 0x27, 0x77, 0x27, 0x77, 0x27,
  0x77, 0x27, 0x77, 0x27, 0x77, 0x27, 0x77, 0x27, 0x77, 0x27, 0x77, 0x27, 0x77, 0x27, 0x00,
  0x00, 0x00, 0x00]

/- src/extended_capabilities/secondary_pci_express.rs:229-250 -/
example :
    SecondaryPciExpress.ofBytes (DATA.drop 4)
      = .ok {
        ecl_data := DATA.drop (4 + 4 + 4),
        link_control_3 := {
          perform_equalization := false, link_equalization_request_interrupt_enable := false,
          lower_skp_os_generation_vector := {
            speed_2_5_gtps := false, speed_5_0_gtps := false, speed_8_0_gtps := false,
            speed_16_0_gtps := false, speed_32_0_gtps := false, speed_64_0_gtps := false,
            reserved := false } },
        lane_error_status := ⟨0b110011111011⟩ } := by decide +kernel

/- src/extended_capabilities/secondary_pci_express.rs:252-267 -/
example :
    (do let spe ← SecondaryPciExpress.ofBytes (DATA.drop 4)
        let lanes ← spe.equalization_control_lanes .X8
        return takeIter EqualizationControlLanes.next 100 lanes)
      = .ok (List.replicate 8 {
        downstream_port_transmitter_preset := .P7,
        downstream_port_receiver_preset_hint := .Reserved,
        upstream_port_transmitter_preset := .P7,
        upstream_port_receiver_preset_hint := .Minus8dB }) := by decide +kernel

end Pcics.SecondaryPciExpress

namespace Pcics.SingleRootIoVirtualization

/- src/extended_capabilities/single_root_io_virtualization.rs:226-277; base addresses compare by
their items -/
example :
    (match SingleRootIoVirtualization.ofBytes [
      0x02, 0x00, 0x00, 0x00, 0x00, 0x00, 0x00, 0x00, 0x08, 0x00, 0x08, 0x00,
      0x00, 0x00, 0x00, 0x00, 0x80, 0x01, 0x04, 0x00, 0x00, 0x00, 0x20, 0x15, 0x53, 0x05, 0x00,
      0x00, 0x01, 0x00, 0x00, 0x00, 0x0c, 0x00, 0x18, 0xa0, 0x00, 0x00, 0x00, 0x00, 0x00, 0x00,
      0x00, 0x00, 0x0c, 0x00, 0x1a, 0xa0, 0x00, 0x00, 0x00, 0x00, 0x00, 0x00, 0x00, 0x00, 0x00,
      0x00, 0x00, 0x00],
      Header.fromBaseAddresses 6 [
        { region := 0, base_address_type := .MemorySpace64 true 0xa0180000 },
        { region := 3, base_address_type := .MemorySpace64 true 0xa01a0000 }] with
    | .ok r, some dwords =>
      decide ({ r with base_addresses := Header.BaseAddresses.new [] } = {
        sriov_capabilities := {
          vf_migration_capable := false, ari_capable_hierarchy_preserved := true,
          vf_10bit_tag_requester_supported := false,
          vf_migration_interrupt_message_number := 0 },
        sriov_control := {
          vf_enable := false, vf_migration_enable := false,
          vf_migration_interrupt_enable := false, vf_mse := false,
          ari_capable_hierarchy := false, vf_10bit_tag_requester_enable := false },
        sriov_status := { vf_migration_status := false }, initial_vfs := 8, total_vfs := 8,
        num_vfs := 0, function_dependency_link := 0, first_vf_offset := 384, vf_stride := 4,
        vf_device_id := 0x1520, page_sizes := { supported := 0x00000553, system := 0x00000001 },
        base_addresses := Header.BaseAddresses.new [],
        vf_migration_state_array_offset := 0 }
      ∧ Header.BaseAddresses.eq r.base_addresses (Header.BaseAddresses.new dwords) = true)
    | _, _ => false) = true := by decide +kernel

end Pcics.SingleRootIoVirtualization

namespace Pcics.VirtualChannel

/- src/extended_capabilities/virtual_channel.rs:33-81 -/
example :
    let sample_data : Bytes := ((List.replicate (6 * 4) 0).set 0x10 0xff).set 0x13 0x80
    (match VirtualChannel.ofBytes ([
      0x02, 0x00, 0x01, 0x00, 0x00, 0x00, 0x00, 0x00, 0x00, 0x00, 0x00, 0x00, 0x00, 0x00, 0x00,
      0x00, 0x00, 0x00, 0x00, 0x00, 0xff, 0x00, 0x00, 0x80, 0x00, 0x00, 0x00, 0x00].drop 4),
      VirtualChannel.ofBytes sample_data with
    | .ok r, .ok sample =>
      decide (r = { sample with
        port_vc_capability_1 := {
          extended_vc_count := 0, low_priority_extended_vc_count := 0,
          reference_clock := .Rc100ns, port_arbitration_table_entry_size := ⟨0⟩ },
        port_vc_capability_2 := {
          vc_arbitration_capability := {
            hardware_fixed_arbitration := false, wrr_32_phases := false, wrr_64_phases := false,
            wrr_128_phases := false, reserved := 0x0 },
          vc_arbitration_table_offset := 0 },
        port_vc_control := {
          load_vc_arbitration_table := false,
          vc_arbitration_select := .HardwareFixedArbitration },
        port_vc_status := { vc_arbitration_table_status := false } })
    | _, _ => false) = true := by decide +kernel

/- src/extended_capabilities/virtual_channel.rs:840-851 -/
example :
    takeIter VcArbitrationTable.next 10 (VcArbitrationTable.new [0x10, 0x23])
      = [{ vc_id := 0 }, { vc_id := 1 }, { vc_id := 3 }, { vc_id := 2 }] := by decide +kernel

/-- src/extended_capabilities/virtual_channel.rs:857-861 -/
def data : Bytes := [
  0x01, 0x23, 0x45, 0x67, 0x89, 0xab, 0xcd, 0xef, 0x01, 0x23, 0x45, 0x67, 0x89, 0xab, 0xcd,
  0xef, 0x01, 0x23, 0x45, 0x67, 0x89, 0xab, 0xcd, 0xef, 0x01, 0x23, 0x45, 0x67, 0x89, 0xab,
  0xcd, 0xef]

/- src/extended_capabilities/virtual_channel.rs:853-1009, four parts -/
example :
    takeIter PortArbitrationTable.next 100 (PortArbitrationTable.new (data.take 4) 1) = [
      ⟨1⟩, ⟨0⟩, ⟨0⟩, ⟨0⟩, ⟨0⟩, ⟨0⟩, ⟨0⟩, ⟨0⟩, ⟨1⟩, ⟨1⟩, ⟨0⟩, ⟨0⟩, ⟨0⟩, ⟨1⟩, ⟨0⟩, ⟨0⟩, ⟨1⟩, ⟨0⟩,
      ⟨1⟩, ⟨0⟩, ⟨0⟩, ⟨0⟩, ⟨1⟩, ⟨0⟩, ⟨1⟩, ⟨1⟩, ⟨1⟩, ⟨0⟩, ⟨0⟩, ⟨1⟩, ⟨1⟩, ⟨0⟩] := by decide +kernel
example :
    takeIter PortArbitrationTable.next 100 (PortArbitrationTable.new (data.take 8) 2) = [
      ⟨1⟩, ⟨0⟩, ⟨0⟩, ⟨0⟩, ⟨3⟩, ⟨0⟩, ⟨2⟩, ⟨0⟩, ⟨1⟩, ⟨1⟩, ⟨0⟩, ⟨1⟩, ⟨3⟩, ⟨1⟩, ⟨2⟩, ⟨1⟩, ⟨1⟩, ⟨2⟩,
      ⟨0⟩, ⟨2⟩, ⟨3⟩, ⟨2⟩, ⟨2⟩, ⟨2⟩, ⟨1⟩, ⟨3⟩, ⟨0⟩, ⟨3⟩, ⟨3⟩, ⟨3⟩, ⟨2⟩, ⟨3⟩] := by decide +kernel
example :
    takeIter PortArbitrationTable.next 100 (PortArbitrationTable.new (data.take 16) 4) = [
      ⟨0x1⟩, ⟨0x0⟩, ⟨0x3⟩, ⟨0x2⟩, ⟨0x5⟩, ⟨0x4⟩, ⟨0x7⟩, ⟨0x6⟩, ⟨0x9⟩, ⟨0x8⟩, ⟨0xb⟩, ⟨0xa⟩, ⟨0xd⟩,
      ⟨0xc⟩, ⟨0xf⟩, ⟨0xe⟩, ⟨0x1⟩, ⟨0x0⟩, ⟨0x3⟩, ⟨0x2⟩, ⟨0x5⟩, ⟨0x4⟩, ⟨0x7⟩, ⟨0x6⟩, ⟨0x9⟩, ⟨0x8⟩,
      ⟨0xb⟩, ⟨0xa⟩, ⟨0xd⟩, ⟨0xc⟩, ⟨0xf⟩, ⟨0xe⟩] := by decide +kernel
example :
    takeIter PortArbitrationTable.next 100 (PortArbitrationTable.new data 8)
      = data.map fun b => ⟨b⟩ := by decide +kernel

/- src/extended_capabilities/virtual_channel.rs:1011-1086 -/
example :
    ((ExtendedVirtualChannels.new [
      0x00, 0x00, 0x00, 0x00, 0xff, 0x00, 0x00, 0x80, 0x00, 0x00, 0x00, 0x00, 0x03, 0x00, 0x00,
      0x02, 0xff, 0x00, 0x00, 0x80, 0x00, 0x00, 0x00, 0x00] 2
      : Res Unit ExtendedVirtualChannels).map' (takeIter ExtendedVirtualChannels.next 10))
      = .ok [
      (.ok {
        vc_resource_capability := {
          port_arbitration_capability := {
            hardware_fixed_arbitration := false, wrr_32_phases := false,
            wrr_64_phases := false, wrr_128_phases := false,
            time_based_wrr_128_phases := false, wrr_256_phases := false, reserved := 0b00 },
          advanced_packet_switching := false, reject_snoop_transactions := false,
          maximum_time_slots := (1 - 1), port_arbitration_table_offset := 0x00 },
        vc_resource_control := {
          tc_or_vc_map := 0xff, load_port_arbitration_table := false,
          port_arbitration_select := .HardwareFixedArbitration, vc_id := 0, vc_enable := true },
        vc_resource_status := {
          port_arbitration_table_status := false, vc_negotiation_pending := false } }),
      (.ok {
        vc_resource_capability := {
          port_arbitration_capability := {
            hardware_fixed_arbitration := true, wrr_32_phases := true, wrr_64_phases := false,
            wrr_128_phases := false, time_based_wrr_128_phases := false,
            wrr_256_phases := false, reserved := 0b00 },
          advanced_packet_switching := false, reject_snoop_transactions := false,
          maximum_time_slots := (1 - 1), port_arbitration_table_offset := 0x02 },
        vc_resource_control := {
          tc_or_vc_map := 0xff, load_port_arbitration_table := false,
          port_arbitration_select := .HardwareFixedArbitration, vc_id := 0, vc_enable := true },
        vc_resource_status := {
          port_arbitration_table_status := false, vc_negotiation_pending := false } })] := by
  decide +kernel

end Pcics.VirtualChannel

namespace Pcics.Header

/- src/header.rs:822-853 -/
example : IoAccessAddressRange.ofU16s 0x00 0x00 0x00 0x00 = .Addr16Bit 0 0 := by decide +kernel
example : IoAccessAddressRange.ofU16s 0x50 0x00 0x60 0x00 = .Addr16Bit 0x50 0x60 := by
  decide +kernel
example : IoAccessAddressRange.ofU16s 0x51 0x50 0x60 0x60 = .Addr32Bit 0x500050 0x600060 := by
  decide +kernel
example :
    IoAccessAddressRange.ofU16s 0x52 0x50 0x60 0x60 = .Unknown 0x02 0x50 0x50 0x60 0x60 := by
  decide +kernel

/-- `Default::default()` of `ExpansionRom`: all zero. -/
def noRom : ExpansionRom := { address := 0, reserved := 0, is_enabled := false }

/- src/header.rs:855-924 -/
example :
    Header.ofBytes [
      0x86, 0x80, 0x02, 0xa1, 0x47, 0x05, 0xb0, 0x02, 0x31, 0x01, 0x06, 0x01, 0x00, 0x00, 0x00,
      0x00, 0x00, 0x40, 0x01, 0x93, 0x00, 0x70, 0x01, 0x93, 0x41, 0x30, 0x00, 0x00, 0x49, 0x30,
      0x00, 0x00, 0x21, 0x30, 0x00, 0x00, 0x00, 0x60, 0x01, 0x93, 0x00, 0x00, 0x00, 0x00, 0x28,
      0x10, 0xa5, 0x06, 0x00, 0x00, 0x00, 0x00, 0x80, 0x00, 0x00, 0x00, 0x00, 0x00, 0x00, 0x00,
      0x0b, 0x01, 0x00, 0x00]
      = (do
        let status ← Status.ofU16 0b0000001010110000
        return {
          vendor_id := 0x8086, device_id := 0xa102, command := Command.ofU16 0b0000010101000111,
          status := status, revision_id := 0x31,
          class_code := { interface := 0x01, sub := 0x06, base := 0x01 }, cache_line_size := 0,
          latency_timer := 0,
          bist := { is_capable := false, is_running := false, completion_code := 0x00 },
          capabilities_pointer := 0x80, is_multi_function := false,
          header_type := (.Normal {
            base_addresses := BaseAddresses.new
              [0x93014000, 0x93017000, 0x3041, 0x3049, 0x3021, 0x93016000],
            cardbus_cis_pointer := 0x00, sub_vendor_id := 0x1028, sub_device_id := 0x06a5,
            expansion_rom := noRom, min_grant := 0, max_latency := 0 }),
          interrupt_line := 0xb, interrupt_pin := .IntA }) := by decide +kernel

/- src/header.rs:926-1025 -/
example :
    Header.ofBytes [
      0x12, 0x19, 0x1d, 0x00, 0x07, 0x00, 0x10, 0x00, 0x00, 0x00, 0x04, 0x06, 0x00, 0x00, 0x01,
      0x80, 0x00, 0x00, 0x00, 0x00, 0x00, 0x00, 0x00, 0x00, 0x04, 0x05, 0x08, 0x00, 0xf1, 0x01,
      0x00, 0x00, 0x00, 0x92, 0x90, 0x92, 0x01, 0x91, 0xf1, 0x91, 0x00, 0x00, 0x00, 0x00, 0x00,
      0x00, 0x00, 0x00, 0x00, 0x00, 0x00, 0x00, 0x40, 0x00, 0x00, 0x00, 0x00, 0x00, 0x00, 0x00,
      0xff, 0x00, 0x1b, 0x00]
      = (do
        let status ← Status.ofU16 0b0000000000010000
        let secondary_status ← Status.ofU16 0x0000
        return {
          vendor_id := 0x1912, device_id := 0x001d, command := Command.ofU16 0b0000000000000111,
          status := status, revision_id := 0x00,
          class_code := { interface := 0x00, sub := 0x04, base := 0x06 }, cache_line_size := 0,
          latency_timer := 0, capabilities_pointer := 0x40,
          bist := { is_capable := true, is_running := false, completion_code := 0x00 },
          is_multi_function := false,
          header_type := (.Bridge {
            base_addresses := (BaseAddresses.new (List.replicate 2 0)),
            primary_bus_number := 0x04,
            secondary_bus_number := 0x05, subordinate_bus_number := 0x08,
            secondary_latency_timer := 0x00,
            io_address_range := (.IoAddr32 (base := 0xf000) (limit := 0x0)),
            secondary_status := secondary_status,
            memory_base := ((0x92000000 : U32) >>> 16).setWidth 16,
            memory_limit := ((0x929fffff - 0xfffff : U32) >>> 16).setWidth 16,
            prefetchable_memory :=
              (.MemAddr64 (base := 0x91000000) (limit := (0x91ffffff - 0xfffff))),
            expansion_rom := noRom,
            bridge_control := BridgeControl.ofU16 0b0000000000011011 }),
          interrupt_line := 0xff, interrupt_pin := .Unused }) := by decide +kernel

/- src/header.rs:1027-1114 -/
example :
    let data : Bytes := [
      0x8e, 0xdf, 0xee, 0x05, 0xb4, 0x00, 0x78, 0x4b, 0x37, 0x00, 0x07, 0x06, 0xf2, 0x29, 0x82,
      0x00, 0x00, 0x80, 0xf8, 0x35, 0x80, 0x00, 0x00, 0x00, 0x6d, 0xba, 0xfe, 0xfc, 0x00, 0x40,
      0xf5, 0x11, 0x00, 0x50, 0x47, 0x22, 0x00, 0x30, 0x85, 0x33, 0x00, 0xc0, 0xd0, 0x44, 0x60,
      0x00, 0x00, 0x00, 0x70, 0x00, 0x00, 0x00, 0x61, 0x00, 0x06, 0x00, 0x70, 0x00, 0x07, 0x00,
      0x06, 0x1a, 0x45, 0x05, 0x22, 0x33, 0x44, 0x55, 0x22, 0x33, 0x00, 0x00]
      ++ List.replicate 56 0
    (do
      let result ← Header.ofBytes data
      match result.header_type with
      | .Cardbus cardbus =>
        let cardbus ← cardbus.trySetOptionalRegisters (data.drop 0x40)
        return { result with header_type := .Cardbus cardbus }
      | _ => .panic)
      = (do
        let status ← Status.ofU16 0b0100101101111000
        let secondary_status ← Status.ofU16 0x0000
        return {
          vendor_id := 0xdf8e, device_id := 0x05ee, command := Command.ofU16 0b0000000010110100,
          status := status, revision_id := 0x37,
          class_code := { interface := 0x00, sub := 0x07, base := 0x06 },
          cache_line_size := 0xf2,
          latency_timer := 41, capabilities_pointer := 0x80, is_multi_function := true,
          header_type := (.Cardbus {
            base_addresses := (BaseAddresses.new [0x35f88000]),
            secondary_status := secondary_status,
            pci_bus_number := 0x6d, cardbus_bus_number := 0xba, subordinate_bus_number := 0xfe,
            cardbus_latency_timer := 252, memory_base_address_0 := 0x11f54000,
            memory_limit_address_0 := (0x22475fff - 0xfff), memory_base_address_1 := 0x33853000,
            memory_limit_address_1 := (0x44d0cfff - 0xfff),
            io_access_address_range_0 := (.Addr16Bit (base := 0x0060) (limit := (0x0073 - 3))),
            io_access_address_range_1 :=
              (.Addr32Bit (base := 0x00060060) (limit := (0x00070073 - 3))),
            bridge_control := CardbusBridgeControl.ofU16 0b0000010101000101,
            subsystem_vendor_id := (some 0x3322),
            subsystem_device_id := (some 0x5544), legacy_mode_base_address := (some 0x3322),
            reserved := (some (List.replicate (0x80 - 0x48) 0)) }),
          bist := { is_capable := false, is_running := false, completion_code := 0x00 },
          interrupt_line := 0x06, interrupt_pin := (.Reserved 0x1a) }) := by decide +kernel

/- src/header/bar.rs:181-193 -/
example :
    BaseAddresses.collect 10 (BaseAddresses.new [0xb3000000, 0, 0, 0, 0, 0])
      = [{ region := 0, base_address_type := .MemorySpace32 false 0xb3000000 }] := by
  decide +kernel

/- src/header/bar.rs:195-240 -/
example :
    BaseAddresses.collect 10
        (BaseAddresses.new [0xb3000000, 0xa000000c, 0, 0xfff1c004, 0x000003bf, 0x00003001])
      = [{ region := 0, base_address_type := .MemorySpace32 false 0xb3000000 },
          { region := 1, base_address_type := .MemorySpace64 true 0xa0000000 },
          { region := 3, base_address_type := .MemorySpace64 false 0x3bffff1c000 },
          { region := 5, base_address_type := .IoSpace 0x3000 }] := by decide +kernel

/- src/header/bar.rs:242-300 -/
example :
    (match fromBaseAddresses 6 [
        { region := 0, base_address_type := .MemorySpace32 false 0x7bd12000 },
        { region := 1, base_address_type := .MemorySpace32 false 0x7bd1d000 },
        { region := 2, base_address_type := .IoSpace 0x2040 },
        { region := 3, base_address_type := .IoSpace 0x2048 },
        { region := 4, base_address_type := .IoSpace 0x2020 },
        { region := 5, base_address_type := .MemorySpace32 false 0x7bd1c000 }],
      le32s 6 [
        0x00, 0x20, 0xd1, 0x7b, 0x00, 0xd0, 0xd1, 0x7b, 0x41, 0x20, 0x00, 0x00, 0x49, 0x20, 0x00,
        0x00, 0x21, 0x20, 0x00, 0x00, 0x00, 0xc0, 0xd1, 0x7b] with
      | some result, some (dwords, []) =>
        (BaseAddresses.new dwords).eq (BaseAddresses.new result)
      | _, _ => false) = true := by decide +kernel

/- src/header/bar.rs:302-318 -/
example :
    (match fromBaseAddresses 2 [
        { region := 0, base_address_type := .MemorySpace32 false 0xfce12000 }],
      le32s 2 [0x00, 0x20, 0xe1, 0xfc, 0x00, 0x00, 0x00, 0x00] with
      | some result, some (dwords, []) =>
        (BaseAddresses.new dwords).eq (BaseAddresses.new result)
      | _, _ => false) = true := by decide +kernel

/- src/header/class_code.rs:242-248 -/
example :
    (ClassCode.ofBytes [0x00, 0x00, 0x05] >>= ClassCode.meaning)
      = .ok ("Memory controller", some "RAM memory", none) := by decide +kernel

end Pcics.Header
