{
 "claims": [
  {
   "property": "C01",
   "status": "proved",
   "theorems": [
    "Pcics.Header.header_accepts_iff",
    "Pcics.Header.header_prefix"
   ],
   "note": ""
  },
  {
   "property": "C02",
   "status": "proved",
   "theorems": [
    "Pcics.Header.header_common_fields"
   ],
   "note": ""
  },
  {
   "property": "C03",
   "status": "proved",
   "theorems": [
    "Pcics.Header.header_layout_selection",
    "Pcics.Header.header_type_code",
    "Pcics.Header.header_expansion_rom"
   ],
   "note": ""
  },
  {
   "property": "C04",
   "status": "proved",
   "theorems": [
    "Pcics.header_reserved_no_capabilities",
    "Pcics.Header.header_capabilities_pointer"
   ],
   "note": ""
  },
  {
   "property": "C05",
   "status": "proved",
   "theorems": [
    "Pcics.Header.command_layout",
    "Pcics.Header.command_injective"
   ],
   "note": ""
  },
  {
   "property": "C06",
   "status": "proved",
   "theorems": [
    "Pcics.Header.status_layout"
   ],
   "note": ""
  },
  {
   "property": "C07",
   "status": "proved",
   "theorems": [
    "Pcics.Header.bridge_control_layout",
    "Pcics.Header.cardbus_bridge_control_layout"
   ],
   "note": ""
  },
  {
   "property": "C08",
   "status": "proved",
   "theorems": [
    "Pcics.Header.interrupt_pin_roundtrip",
    "Pcics.Header.expansion_rom_roundtrip",
    "Pcics.Header.expansion_rom_u64",
    "Pcics.Header.bist_roundtrip"
   ],
   "note": ""
  },
  {
   "property": "C09",
   "status": "proved",
   "theorems": [
    "Pcics.Header.bridge_io_window",
    "Pcics.Header.bridge_prefetchable_window",
    "Pcics.Header.bridge_windows_aligned"
   ],
   "note": ""
  },
  {
   "property": "C10",
   "status": "partial",
   "theorems": [
    "Pcics.Header.cardbus_io_roundtrip_fails",
    "Pcics.Header.cardbus_io_encode_panics",
    "Pcics.Header.cardbus_io_roundtrip_partial",
    "Pcics.Header.cardbus_io_roundtrip_iff"
   ],
   "note": "False as stated for 32-bit and reserved windows (refuted by the _fails and _panics theorems); exactly which windows survive (cardbus_io_roundtrip_iff) and when encoding panics is proved."
  },
  {
   "property": "C11",
   "status": "proved",
   "theorems": [
    "Pcics.Header.cardbus_optional_registers"
   ],
   "note": ""
  },
  {
   "property": "C12",
   "status": "proved",
   "theorems": [
    "Pcics.Header.bar_iteration",
    "Pcics.Header.bar_iteration_mem"
   ],
   "note": ""
  },
  {
   "property": "C13",
   "status": "proved",
   "theorems": [
    "Pcics.Header.bar_count",
    "Pcics.Header.bar_regions_increasing",
    "Pcics.Header.bar_next",
    "Pcics.Header.bar_exhausted"
   ],
   "note": ""
  },
  {
   "property": "C14",
   "status": "proved",
   "theorems": [
    "Pcics.Header.bar_broken_last",
    "Pcics.Header.bar_broken_only_last"
   ],
   "note": ""
  },
  {
   "property": "C15",
   "status": "partial",
   "theorems": [
    "Pcics.Header.bar_collect_panics",
    "Pcics.Header.bar_collect_loses",
    "Pcics.Header.bar_collect_roundtrip_partial",
    "Pcics.Header.bar_collect_general",
    "Pcics.Header.bar_collect_roundtrip_iff",
    "Pcics.Header.bar_collect_panics_iff"
   ],
   "note": "The never-panics clause is refuted for collecting into fewer registers, and reserved encodings are lost; exactly which arrays are restored (bar_collect_roundtrip_iff) and which lists make collecting panic (bar_collect_panics_iff) is proved."
  },
  {
   "property": "C16",
   "status": "proved",
   "theorems": [
    "Pcics.cap_walk",
    "Pcics.cap_walk_pointer",
    "Pcics.cap_item_pointer"
   ],
   "note": ""
  },
  {
   "property": "C17",
   "status": "proved",
   "theorems": [
    "Pcics.cap_walk_end"
   ],
   "note": ""
  },
  {
   "property": "C18",
   "status": "partial",
   "theorems": [
    "Pcics.cap_walk_dangling_repeats",
    "Pcics.cap_walk_header_only_dump",
    "Pcics.cap_walk_cycle",
    "Pcics.cap_walk_not_always_terminating",
    "Pcics.cap_walk_terminates_iff_partial",
    "Pcics.cap_walk_bound_partial",
    "Pcics.cap_walk_terminates_decidable"
   ],
   "note": "False as stated: dangling pointers and cyclic lists make the walk endless (cap_walk_dangling_repeats, cap_walk_cycle). Proved: exactly which walks terminate, and that those yield at most 193 items."
  },
  {
   "property": "C19",
   "status": "proved",
   "theorems": [
    "Pcics.cap_walk_header_pointer"
   ],
   "note": ""
  },
  {
   "property": "C20",
   "status": "proved",
   "theorems": [
    "Pcics.cap_item_pointer",
    "Pcics.cap_walk_after_error"
   ],
   "note": ""
  },
  {
   "property": "C21",
   "status": "proved",
   "theorems": [
    "Pcics.cap_dispatch",
    "Pcics.typeOne_iff",
    "Pcics.cap_kind_of_id"
   ],
   "note": ""
  },
  {
   "property": "C22",
   "status": "proved",
   "theorems": [
    "Pcics.cap_local"
   ],
   "note": ""
  },
  {
   "property": "C23",
   "status": "proved",
   "theorems": [
    "Pcics.cap_next_never_panics",
    "Pcics.cap_never_panics"
   ],
   "note": ""
  },
  {
   "property": "C24",
   "status": "proved",
   "theorems": [
    "Pcics.ExtendedCapabilities.ecap_walk",
    "Pcics.ExtendedCapabilities.ecap_walk_offset",
    "Pcics.ExtendedCapabilities.ecap_item_header"
   ],
   "note": ""
  },
  {
   "property": "C25",
   "status": "proved",
   "theorems": [
    "Pcics.ExtendedCapabilities.ecap_walk_end_iff",
    "Pcics.ExtendedCapabilities.ecap_stays_ended",
    "Pcics.ExtendedCapabilities.ecap_walk_end",
    "Pcics.ExtendedCapabilities.ecap_walk_low",
    "Pcics.ExtendedCapabilities.ecap_walk_dangling"
   ],
   "note": ""
  },
  {
   "property": "C26",
   "status": "partial",
   "theorems": [
    "Pcics.ExtendedCapabilities.ecap_walk_cycle",
    "Pcics.ExtendedCapabilities.ecap_walk_not_always_terminating",
    "Pcics.ExtendedCapabilities.ecap_walk_terminates_iff_partial",
    "Pcics.ExtendedCapabilities.ecap_walk_bound_partial",
    "Pcics.ExtendedCapabilities.ecap_walk_increasing_partial"
   ],
   "note": "False as stated: cyclic next offsets make the walk endless (ecap_walk_cycle). Proved: exactly which walks terminate, that those yield at most 3841 items, and that increasing next offsets suffice."
  },
  {
   "property": "C27",
   "status": "partial",
   "theorems": [
    "Pcics.ExtendedCapabilities.ecap_item_partial",
    "Pcics.ExtendedCapabilities.ecap_local_partial",
    "Pcics.ExtendedCapabilities.ecap_item_from_start",
    "Pcics.ExtendedCapabilities.ecap_not_local",
    "Pcics.ExtendedCapabilities.ecap_item_fails"
   ],
   "note": "False as stated: thirteen ids are decoded from the start of the extended space instead of from the capability's own offset (ecap_item_from_start, ecap_not_local, ecap_item_fails). Proved for all other ids, and for every id at offset 0x100."
  },
  {
   "property": "C28",
   "status": "proved",
   "theorems": [
    "Pcics.ExtendedCapabilities.ecap_item_header",
    "Pcics.ExtendedCapabilities.ecap_dispatch",
    "Pcics.ExtendedCapabilities.ecap_kind_of_id"
   ],
   "note": ""
  },
  {
   "property": "C29",
   "status": "proved",
   "theorems": [
    "Pcics.ExtendedCapabilities.ecap_next_never_panics",
    "Pcics.ExtendedCapabilities.ecap_walk_never_panics"
   ],
   "note": ""
  },
  {
   "property": "C30",
   "status": "proved",
   "theorems": [
    "Pcics.PowerManagementInterface.AuxCurrent_total",
    "Pcics.PowerManagementInterface.PowerState_total",
    "Pcics.PowerManagementInterface.DataSelect_values",
    "Pcics.PowerManagementInterface.DataScale_total",
    "Pcics.PowerManagementInterface.Capabilities_layout",
    "Pcics.PowerManagementInterface.Control_layout",
    "Pcics.PowerManagementInterface.Bridge_layout",
    "Pcics.PowerManagementInterface.PowerManagementInterface_bytes",
    "Pcics.PowerManagementInterface.PowerManagementInterface_data"
   ],
   "note": ""
  },
  {
   "property": "C31",
   "status": "proved",
   "theorems": [
    "Pcics.AcceleratedGraphicsPort.CalCycle_values",
    "Pcics.AcceleratedGraphicsPort.DataRateSupport_values",
    "Pcics.AcceleratedGraphicsPort.DataRateEnabled_values",
    "Pcics.AcceleratedGraphicsPort.Identifier_layout",
    "Pcics.AcceleratedGraphicsPort.Status_layout",
    "Pcics.AcceleratedGraphicsPort.Command_layout",
    "Pcics.AcceleratedGraphicsPort.IsochronousStatus_layout",
    "Pcics.AcceleratedGraphicsPort.Control_layout",
    "Pcics.AcceleratedGraphicsPort.IsochronousCommand_layout",
    "Pcics.AcceleratedGraphicsPort.AcceleratedGraphicsPort_bytes"
   ],
   "note": ""
  },
  {
   "property": "C32",
   "status": "proved",
   "theorems": [
    "Pcics.AdvancedFeatures_bytes",
    "Pcics.BridgeSubsystemVendorId_bytes",
    "Pcics.DebugPort_bytes",
    "Pcics.SataBarLocation_values",
    "Pcics.Sata_bytes",
    "Pcics.Sata_value",
    "Pcics.SlotIdentification_bytes",
    "Pcics.VitalProductData_bytes"
   ],
   "note": ""
  },
  {
   "property": "C33",
   "status": "proved",
   "theorems": [
    "Pcics.MessageSignaledInterrups.MessageControl_layout",
    "Pcics.MessageSignaledInterrups.MessageSignaledInterrups_bytes"
   ],
   "note": ""
  },
  {
   "property": "C34",
   "status": "proved",
   "theorems": [
    "Pcics.MessageSignaledInterrups.number_of_vectors_pow"
   ],
   "note": ""
  },
  {
   "property": "C35",
   "status": "proved",
   "theorems": [
    "Pcics.MsiX.Bir_values",
    "Pcics.MsiX.MessageControl_layout",
    "Pcics.MsiX.Table_layout",
    "Pcics.MsiX.PendingBitArray_layout",
    "Pcics.MsiX.MsiX_bytes"
   ],
   "note": ""
  },
  {
   "property": "C36",
   "status": "proved",
   "theorems": [
    "Pcics.PciX.EccErrorPhase_total",
    "Pcics.PciX.SecondaryBusMode_total",
    "Pcics.PciX.ErrorProtection_total",
    "Pcics.PciX.SecondaryBusFrequency_total",
    "Pcics.PciX.Command_layout",
    "Pcics.PciX.DeviceComplexity_values",
    "Pcics.PciX.Status_layout",
    "Pcics.PciX.Syndrome_layout",
    "Pcics.PciX.EccControlAndStatus_layout",
    "Pcics.PciX.SecondaryStatus_layout",
    "Pcics.PciX.BridgeStatus_layout",
    "Pcics.PciX.PciX_bytes",
    "Pcics.PciX.PciXBridge_bytes",
    "Pcics.PciX.pcix_values",
    "Pcics.PciX.pcix_command_values",
    "Pcics.PciX.pcix_cumulative_bytes_in_kb",
    "Pcics.PciX.pcix_mode_and_frequency"
   ],
   "note": ""
  },
  {
   "property": "C37",
   "status": "proved",
   "theorems": [
    "Pcics.Hypertransport.LinkWidth_values",
    "Pcics.Hypertransport.SlaveOrPrimaryCommand_layout",
    "Pcics.Hypertransport.LinkControl_layout",
    "Pcics.Hypertransport.LinkConfiguration_layout",
    "Pcics.Hypertransport.RevisionId_layout",
    "Pcics.Hypertransport.LinkFrequencyCapability_layout",
    "Pcics.Hypertransport.FeatureCapability_layout",
    "Pcics.Hypertransport.ErrorHandling_layout",
    "Pcics.Hypertransport.HostOrSecondaryCommand_layout",
    "Pcics.Hypertransport.LinkFrequency_values",
    "Pcics.Hypertransport.linkFreqErr_layout",
    "Pcics.Hypertransport.Hypertransport_bytes",
    "Pcics.Hypertransport.Hypertransport_type_code",
    "Pcics.Hypertransport.MsiMapping_base"
   ],
   "note": ""
  },
  {
   "property": "C38",
   "status": "proved",
   "theorems": [
    "Pcics.VendorSpecific.Virtio_bytes",
    "Pcics.VendorSpecific.VendorSpecific_empty",
    "Pcics.VendorSpecific.VendorSpecific_bytes",
    "Pcics.VendorSpecific.VendorSpecific_payload_length"
   ],
   "note": ""
  },
  {
   "property": "C39",
   "status": "proved",
   "theorems": [
    "Pcics.PciExpress.MaxSize_total",
    "Pcics.PciExpress.PhantomFunctionsSupported_total",
    "Pcics.PciExpress.EndpointL0sAcceptableLatency_total",
    "Pcics.PciExpress.EndpointL1AcceptableLatency_total",
    "Pcics.PciExpress.LinkSpeed_values",
    "Pcics.PciExpress.LinkWidth_values",
    "Pcics.PciExpress.ActiveStatePowerManagement_total",
    "Pcics.PciExpress.L0sExitLatency_total",
    "Pcics.PciExpress.L1ExitLatency_total",
    "Pcics.PciExpress.IndicatorControl_total",
    "Pcics.PciExpress.CompletionTimeoutRanges_values",
    "Pcics.PciExpress.TphCompleter_total",
    "Pcics.PciExpress.LnSystemCls_total",
    "Pcics.PciExpress.Obff_total",
    "Pcics.PciExpress.MaxEndEndTlpPrefixes_total",
    "Pcics.PciExpress.EmergencyPowerReduction_total",
    "Pcics.PciExpress.CompletionTimeoutValue_values",
    "Pcics.PciExpress.ObffEnable_total",
    "Pcics.PciExpress.CrosslinkResolution_total",
    "Pcics.PciExpress.DownstreamComponentPresence_values",
    "Pcics.PciExpress.TransmitterPreset_values",
    "Pcics.PciExpress.ReceiverPresetHint_values",
    "Pcics.PciExpress.ExtendedTagFieldSupported_values",
    "Pcics.PciExpress.SlotPowerLimit_total",
    "Pcics.PciExpress.DeviceCapabilities_layout",
    "Pcics.PciExpress.DeviceControl_layout",
    "Pcics.PciExpress.DeviceStatus_layout",
    "Pcics.PciExpress.LinkCapabilities_layout",
    "Pcics.PciExpress.ReadCompletionBoundary_values",
    "Pcics.PciExpress.LinkControl_layout",
    "Pcics.PciExpress.LinkStatus_layout",
    "Pcics.PciExpress.SlotCapabilities_layout",
    "Pcics.PciExpress.SlotControl_layout",
    "Pcics.PciExpress.SlotStatus_layout",
    "Pcics.PciExpress.RootControl_layout",
    "Pcics.PciExpress.RootCapabilities_layout",
    "Pcics.PciExpress.RootStatus_layout",
    "Pcics.PciExpress.DeviceCapabilities2_layout",
    "Pcics.PciExpress.EndEndTlpPrefixBlocking_values",
    "Pcics.PciExpress.DeviceControl2_layout",
    "Pcics.PciExpress.SupportedLinkSpeedsVector_layout",
    "Pcics.PciExpress.LinkCapabilities2_layout",
    "Pcics.PciExpress.DeEmphasis_values",
    "Pcics.PciExpress.LinkControl2_layout",
    "Pcics.PciExpress.LinkStatus2_layout",
    "Pcics.PciExpress.PciExpress_bytes",
    "Pcics.PciExpress.PciExpress_kind"
   ],
   "note": ""
  },
  {
   "property": "C40",
   "status": "proved",
   "theorems": [
    "Pcics.EnhancedAllocation.BarEquivalentIndicator_total",
    "Pcics.EnhancedAllocation.ResourceDefinition_values",
    "Pcics.EnhancedAllocation.EnhancedAllocationEntry_layout",
    "Pcics.EnhancedAllocation.ea_next",
    "Pcics.EnhancedAllocation.ea_collect",
    "Pcics.EnhancedAllocation.ea_at_most",
    "Pcics.EnhancedAllocation.ea_exhausted",
    "Pcics.EnhancedAllocation.ea_function",
    "Pcics.EnhancedAllocation.ea_bridge"
   ],
   "note": ""
  },
  {
   "property": "C41",
   "status": "partial",
   "theorems": [
    "Pcics.FlatteningPortalBridge.FpbRidVectorSizeSupported_values",
    "Pcics.FlatteningPortalBridge.FpbMemLowVectorSizeSupported_values",
    "Pcics.FlatteningPortalBridge.FpbMemHighVectorSizeSupported_values",
    "Pcics.FlatteningPortalBridge.FpbRidVectorGranularity_values",
    "Pcics.FlatteningPortalBridge.FpbMemLowVectorGranularity_values",
    "Pcics.FlatteningPortalBridge.FpbMemHighVectorGranularity_values",
    "Pcics.FlatteningPortalBridge.FpbVectorSelect_total",
    "Pcics.FlatteningPortalBridge.FpbCapabilities_layout",
    "Pcics.FlatteningPortalBridge.FpbVectorAccessControl_layout",
    "Pcics.FlatteningPortalBridge.FpbRidVectorControl_layout_partial",
    "Pcics.FlatteningPortalBridge.fpb_rid_wraps",
    "Pcics.FlatteningPortalBridge.fpb_rid_not_masked",
    "Pcics.FlatteningPortalBridge.FpbMemLowVectorControl_layout_partial",
    "Pcics.FlatteningPortalBridge.fpb_mem_low_wraps",
    "Pcics.FlatteningPortalBridge.fpb_mem_low_not_masked",
    "Pcics.FlatteningPortalBridge.FpbMemHighVectorControl_layout",
    "Pcics.FlatteningPortalBridge.FpbRidVectorControl_read",
    "Pcics.FlatteningPortalBridge.FpbMemLowVectorControl_read",
    "Pcics.FlatteningPortalBridge.FlatteningPortalBridge_registers",
    "Pcics.FlatteningPortalBridge.FlatteningPortalBridge_bytes_partial"
   ],
   "note": "False as stated: wrapping_shl takes the amount modulo 32, so large granularities wrap (fpb_rid_wraps, fpb_mem_low_wraps) and starts are not masked (_not_masked). The layout and the windows for smaller granularities are proved."
  },
  {
   "property": "C42",
   "status": "partial",
   "theorems": [
    "Pcics.AdvancedErrorReporting.UncorrectableError_layout",
    "Pcics.AdvancedErrorReporting.CorrectableError_layout",
    "Pcics.AdvancedErrorReporting.AdvancedErrorCapabilitiesAndControl_layout",
    "Pcics.AdvancedErrorReporting.RootErrorCommand_layout",
    "Pcics.AdvancedErrorReporting.RootErrorStatus_layout",
    "Pcics.AdvancedErrorReporting.AdvancedErrorReporting_bytes",
    "Pcics.AdvancedErrorReporting.AdvancedErrorReporting_arch_partial",
    "Pcics.AdvancedErrorReporting.AdvancedErrorReporting_prefix_refused",
    "Pcics.AdvancedErrorReporting.AdvancedErrorReporting_prefix_wrong",
    "Pcics.AdvancedErrorReporting.AdvancedErrorReporting_no_panic"
   ],
   "note": "False as stated: the TLP prefix log is read 40 bytes too far (AdvancedErrorReporting_prefix_refused, _prefix_wrong). Everything else is proved at its offset."
  },
  {
   "property": "C43",
   "status": "partial",
   "theorems": [
    "Pcics.VirtualChannel.ReferenceClock_values",
    "Pcics.VirtualChannel.PortArbitrationSelect_values",
    "Pcics.VirtualChannel.PortArbitrationSelect_roundtrip",
    "Pcics.VirtualChannel.VcArbitrationSelect_values",
    "Pcics.VirtualChannel.PortVcCapability1_layout",
    "Pcics.VirtualChannel.VcResourceCapability_layout",
    "Pcics.VirtualChannel.VcResourceControl_layout",
    "Pcics.VirtualChannel.VcResourceStatus_layout",
    "Pcics.VirtualChannel.PortVcCapability2_layout",
    "Pcics.VirtualChannel.PortVcControl_layout",
    "Pcics.VirtualChannel.PortVcStatus_layout",
    "Pcics.VirtualChannel.VirtualChannel_bytes",
    "Pcics.VirtualChannel.portPhases_eq",
    "Pcics.VirtualChannel.vcPhases_eq",
    "Pcics.VirtualChannel.entry_size",
    "Pcics.VirtualChannel.extended_virtual_channels_items",
    "Pcics.VirtualChannel.vc_arbitration_table_partial",
    "Pcics.VirtualChannel.port_arbitration_table_partial",
    "Pcics.VirtualChannel.vc_arbitration_table_panics",
    "Pcics.VirtualChannel.port_arbitration_table_panics"
   ],
   "note": "The registers and the extended VC list are proved; the arbitration table accessors are proved for tables that lie inside the data (_partial) and refuted otherwise: they panic (vc_arbitration_table_panics, port_arbitration_table_panics)."
  },
  {
   "property": "C44",
   "status": "proved",
   "theorems": [
    "Pcics.MultifunctionVirtualChannel.FunctionArbitrationTable_items",
    "Pcics.MultifunctionVirtualChannel.function_entry_size",
    "Pcics.VirtualChannel.VcArbitrationTable_items",
    "Pcics.VirtualChannel.PortArbitrationTable_items",
    "Pcics.VirtualChannel.entry_size"
   ],
   "note": ""
  },
  {
   "property": "C45",
   "status": "proved",
   "theorems": [
    "Pcics.RootComplexLinkDeclaration.LinkAddress_layout",
    "Pcics.RootComplexLinkDeclaration.LinkAddress_roundtrip"
   ],
   "note": ""
  },
  {
   "property": "C46",
   "status": "proved",
   "theorems": [
    "Pcics.RootComplexLinkDeclaration.ElementType_values",
    "Pcics.RootComplexLinkDeclaration.ElementSelfDescription_layout",
    "Pcics.RootComplexLinkDeclaration.LinkDescription_layout",
    "Pcics.RootComplexLinkDeclaration.ElementType_roundtrip",
    "Pcics.RootComplexLinkDeclaration.DeviceSerialNumber_bytes",
    "Pcics.RootComplexLinkDeclaration.RootComplexLinkDeclaration_bytes",
    "Pcics.RootComplexLinkDeclaration.LinkEntries_items",
    "Pcics.RootComplexLinkDeclaration.LinkEntries_valid"
   ],
   "note": ""
  },
  {
   "property": "C47",
   "status": "partial",
   "theorems": [
    "Pcics.AccessControlServices.AcsCapability_layout_fails",
    "Pcics.AccessControlServices.AcsCapability_layout_partial",
    "Pcics.AccessControlServices.AcsCapability_read",
    "Pcics.AccessControlServices.AcsControl_layout",
    "Pcics.AccessControlServices.AccessControlServices_bytes",
    "Pcics.AccessControlServices.EgressControlVectors_items",
    "Pcics.AccessControlServices.egress_control_vectors_partial",
    "Pcics.AccessControlServices.egress_control_vectors_short",
    "Pcics.AccessControlServices.egress_control_vectors_exact",
    "Pcics.AccessControlServices.egress_control_vectors_fails"
   ],
   "note": "False as stated: only size / 32 * 32 bits are yielded (egress_control_vectors_fails, _short) and the size field is read with 7 instead of 8 bits (AcsCapability_layout_fails). Proved for sizes below 128 that are multiples of 32, and the iterator itself for any data. What is yielded in every case: egress_control_vectors_exact."
  },
  {
   "property": "C48",
   "status": "partial",
   "theorems": [
    "Pcics.LatencyToleranceReporting.MaxLatency_value",
    "Pcics.LatencyToleranceReporting.MaxLatency_roundtrip_fails",
    "Pcics.LatencyToleranceReporting.MaxLatency_encoded",
    "Pcics.LatencyToleranceReporting.MaxLatency_roundtrip_partial",
    "Pcics.ReadinessTimeReporting.ReadinessTime_actual",
    "Pcics.ReadinessTimeReporting.ReadinessTime_actual_panics"
   ],
   "note": "MaxLatency values are proved; the u16 round trip is false (MaxLatency_roundtrip_fails, encoder and decoder disagree on the scale position) and ReadinessTime panics for scales it does not define (ReadinessTime_actual_panics)."
  },
  {
   "property": "C49",
   "status": "proved",
   "theorems": [
    "Pcics.L1PmSubstates.PortTPowerOnScale_values",
    "Pcics.L1PmSubstates.L1PmSubstates_bytes",
    "Pcics.L1PmSubstates.PortTPowerOnScale_roundtrip",
    "Pcics.L1PmSubstates.L1PmSubstates_roundtrip",
    "Pcics.L1PmSubstates.PortTPowerOn_value"
   ],
   "note": ""
  },
  {
   "property": "C50",
   "status": "proved",
   "theorems": [
    "Pcics.ResizableBar.ResizableBarControl_layout",
    "Pcics.ResizableBar.ResizableBar_bytes",
    "Pcics.ResizableBar.ResizableBar_items",
    "Pcics.ResizableBar.ResizableBar_power",
    "Pcics.ResizableBar.ResizableBar_size_names"
   ],
   "note": ""
  },
  {
   "property": "C51",
   "status": "proved",
   "theorems": [
    "Pcics.DesignatedVendorSpecificExtendedCapability.Dvsec_bytes",
    "Pcics.VendorSpecificExtendedCapability.VendorSpecificExtendedCapability_bytes"
   ],
   "note": ""
  },
  {
   "property": "C52",
   "status": "proved",
   "theorems": [
    "Pcics.DownstreamPortContainment.DpcTrigger_values",
    "Pcics.DownstreamPortContainment.DpcCapability_layout",
    "Pcics.DownstreamPortContainment.DpcControl_layout",
    "Pcics.DownstreamPortContainment.DpcTriggerReason_values",
    "Pcics.DownstreamPortContainment.DpcTriggerReason_roundtrip",
    "Pcics.DownstreamPortContainment.DpcStatus_layout",
    "Pcics.DownstreamPortContainment.RpPio_layout",
    "Pcics.DownstreamPortContainment.DownstreamPortContainment_bytes",
    "Pcics.DownstreamPortContainment.DownstreamPortContainment_no_panic"
   ],
   "note": ""
  },
  {
   "property": "C53",
   "status": "proved",
   "theorems": [
    "Pcics.MultifunctionVirtualChannel.FunctionArbitrationSelect_values",
    "Pcics.MultifunctionVirtualChannel.PortVcCapability1_layout",
    "Pcics.MultifunctionVirtualChannel.VcResourceCapability_layout",
    "Pcics.MultifunctionVirtualChannel.VcResourceControl_layout",
    "Pcics.MultifunctionVirtualChannel.VcResourceStatus_layout",
    "Pcics.MultifunctionVirtualChannel.FunctionArbitrationSelect_roundtrip",
    "Pcics.MultifunctionVirtualChannel.functionPhases_eq",
    "Pcics.MultifunctionVirtualChannel.ExtendedVirtualChannel_roundtrip",
    "Pcics.MultifunctionVirtualChannel.MultifunctionVirtualChannel_bytes",
    "Pcics.MultifunctionVirtualChannel.ExtendedVirtualChannels_items",
    "Pcics.MultifunctionVirtualChannel.function_entry_size"
   ],
   "note": ""
  },
  {
   "property": "C54",
   "status": "proved",
   "theorems": [
    "Pcics.SingleRootIoVirtualization.SriovCapabilities_layout",
    "Pcics.SingleRootIoVirtualization.SriovControl_layout",
    "Pcics.SingleRootIoVirtualization.SriovStatus_layout",
    "Pcics.SingleRootIoVirtualization.SingleRootIoVirtualization_bytes"
   ],
   "note": ""
  },
  {
   "property": "C55",
   "status": "partial",
   "theorems": [
    "Pcics.SecondaryPciExpress.LinkControl3_layout",
    "Pcics.SecondaryPciExpress.LaneEqualizationControl_layout",
    "Pcics.SecondaryPciExpress.SecondaryPciExpress_bytes",
    "Pcics.SecondaryPciExpress.equalization_control_lanes_partial",
    "Pcics.SecondaryPciExpress.equalization_control_lanes_panics"
   ],
   "note": "False as stated: asking for more lanes than the data holds panics (equalization_control_lanes_panics, exact condition). Proved for data with enough lanes; the fixed part is proved completely."
  },
  {
   "property": "C56",
   "status": "proved",
   "theorems": [
    "Pcics.AcceleratedGraphicsPort.CalCycle_roundtrip",
    "Pcics.AcceleratedGraphicsPort.DataRateSupport_roundtrip",
    "Pcics.AcceleratedGraphicsPort.DataRateEnabled_roundtrip",
    "Pcics.Hypertransport.RevisionId_roundtrip",
    "Pcics.PciExpress.link_code_roundtrip",
    "Pcics.PciExpress.completion_timeout_roundtrip",
    "Pcics.PciExpress.device2_code_roundtrip",
    "Pcics.PciExpress.prefix_blocking_roundtrip",
    "Pcics.PciX.pcix_mode_and_frequency",
    "Pcics.PowerManagementInterface.DataSelect_roundtrip",
    "Pcics.ComputeExpressLink.CacheSfCoverage_roundtrip",
    "Pcics.DownstreamPortContainment.DpcTriggerReason_roundtrip",
    "Pcics.L1PmSubstates.PortTPowerOnScale_roundtrip",
    "Pcics.MultifunctionVirtualChannel.FunctionArbitrationSelect_roundtrip",
    "Pcics.RootComplexLinkDeclaration.ElementType_roundtrip",
    "Pcics.VirtualChannel.PortArbitrationSelect_roundtrip",
    "Pcics.Header.header_type_code",
    "Pcics.Header.interrupt_pin_roundtrip"
   ],
   "note": ""
  },
  {
   "property": "C57",
   "status": "proved",
   "theorems": [
    "Pcics.ComputeExpressLink.HdmCount_total",
    "Pcics.ComputeExpressLink.CxlResetTimeout_values",
    "Pcics.ComputeExpressLink.CacheSfCoverage_total",
    "Pcics.ComputeExpressLink.CacheSfGranularity_total",
    "Pcics.ComputeExpressLink.CacheSizeUnit_values",
    "Pcics.ComputeExpressLink.MediaType_values",
    "Pcics.ComputeExpressLink.MemoryClass_values",
    "Pcics.ComputeExpressLink.DesiredInterleave_values",
    "Pcics.ComputeExpressLink.MemoryActiveTimeout_values",
    "Pcics.ComputeExpressLink.CxlCapability_layout",
    "Pcics.ComputeExpressLink.CacheCleanEviction_values",
    "Pcics.ComputeExpressLink.CxlControl_layout",
    "Pcics.ComputeExpressLink.CxlStatus_layout",
    "Pcics.ComputeExpressLink.CxlControl2_layout",
    "Pcics.ComputeExpressLink.CxlStatus2_layout",
    "Pcics.ComputeExpressLink.CxlLock_layout",
    "Pcics.ComputeExpressLink.CxlCapability2_layout",
    "Pcics.ComputeExpressLink.CxlRangeSize_layout",
    "Pcics.ComputeExpressLink.CxlRangeBase_layout",
    "Pcics.ComputeExpressLink.PcieDvsecForCxlDevice_bytes",
    "Pcics.ComputeExpressLink.ComputeExpressLink_ids",
    "Pcics.ComputeExpressLink.CacheSfCoverage_roundtrip",
    "Pcics.DesignatedVendorSpecificExtendedCapability.Dvsec_bytes"
   ],
   "note": ""
  },
  {
   "property": "C58",
   "status": "proved",
   "theorems": [
    "Pcics.Header.bar_eq_iff",
    "Pcics.Header.bar_eq_not_registers",
    "Pcics.Header.bar_eq_registers",
    "Pcics.Header.bar_eq_iff_left",
    "Pcics.Header.bar_eq_any"
   ],
   "note": ""
  },
  {
   "property": "C59",
   "status": "proved",
   "theorems": [
    "Pcics.AddressTranslationServices.AtsCapability_layout",
    "Pcics.AddressTranslationServices.AtsControl_layout",
    "Pcics.AddressTranslationServices.AddressTranslationServices_bytes",
    "Pcics.AlternativeRoutingIdInterpolation.AriCapability_layout",
    "Pcics.AlternativeRoutingIdInterpolation.AriControl_layout",
    "Pcics.AlternativeRoutingIdInterpolation.AlternativeRoutingIdInterpretation_bytes",
    "Pcics.ConfigurationAccessCorrelation.ConfigurationAccessCorrelation_bytes",
    "Pcics.DeviceSerialNumber.DeviceSerialNumber_bytes",
    "Pcics.FrsQueuing.FrsQueuingCapability_layout",
    "Pcics.FrsQueuing.FrsQueuingStatus_layout",
    "Pcics.FrsQueuing.FrsQueuingControl_layout",
    "Pcics.FrsQueuing.FrsMessageQueue_layout",
    "Pcics.FrsQueuing.FrsQueuing_bytes",
    "Pcics.LatencyToleranceReporting.MaxLatency_layout",
    "Pcics.LatencyToleranceReporting.LatencyToleranceReporting_bytes",
    "Pcics.LnRequester.LnrCapability_layout",
    "Pcics.LnRequester.LnrControl_layout",
    "Pcics.LnRequester.LnRequester_bytes",
    "Pcics.PageRequestInterface.PageRequestInterface_bytes",
    "Pcics.PrecisionTimeMeasurement.PtmCapability_layout",
    "Pcics.PrecisionTimeMeasurement.PtmControl_layout",
    "Pcics.PrecisionTimeMeasurement.PrecisionTimeMeasurement_bytes",
    "Pcics.ProcessAddressSpaceId.PacidCapability_layout",
    "Pcics.ProcessAddressSpaceId.PacidControl_layout",
    "Pcics.ProcessAddressSpaceId.ProcessAddressSpaceId_bytes",
    "Pcics.ReadinessTimeReporting.ReadinessTime_layout",
    "Pcics.ReadinessTimeReporting.ReadinessTimeReporting_bytes",
    "Pcics.RootComplexEventCollectorEndpointAssociation.RootComplexEventCollectorEndpointAssociation_bytes",
    "Pcics.RootComplexInternalLinkControl.RootComplexLinkCapabilities_layout",
    "Pcics.RootComplexInternalLinkControl.RootComplexLinkControl_layout",
    "Pcics.RootComplexInternalLinkControl.RootComplexLinkStatus_layout",
    "Pcics.RootComplexInternalLinkControl.RootComplexInternalLinkControl_bytes",
    "Pcics.RootComplexRegisterBlockHeader.RcrbCapabilities_layout",
    "Pcics.RootComplexRegisterBlockHeader.RcrbControl_layout",
    "Pcics.RootComplexRegisterBlockHeader.RootComplexRegisterBlockHeader_bytes"
   ],
   "note": ""
  },
  {
   "property": "C60",
   "status": "partial",
   "theorems": [
    "Pcics.PowerBudgeting.BasePower_values",
    "Pcics.PowerBudgeting.DataScale_total",
    "Pcics.PowerBudgeting.PmSubState_values",
    "Pcics.PowerBudgeting.PmState_total",
    "Pcics.PowerBudgeting.OperationConditionType_values",
    "Pcics.PowerBudgeting.PowerRail_thermal_fails",
    "Pcics.PowerBudgeting.PowerRail_values_partial",
    "Pcics.PowerBudgeting.PowerRail_read",
    "Pcics.PowerBudgeting.PowerBudgeting_bytes",
    "Pcics.PowerBudgeting.PowerBudgeting_bytes_partial"
   ],
   "note": "Thermal is decoded at code 3 instead of 7 (PowerRail_thermal_fails); all other codes and positions are proved."
  },
  {
   "property": "C61",
   "status": "partial",
   "theorems": [
    "Pcics.DynamicPowerAllocation.TransitionLatencyUnit_total",
    "Pcics.DynamicPowerAllocation.PowerAllocationScale_total",
    "Pcics.DynamicPowerAllocation.DpaCapability_layout",
    "Pcics.DynamicPowerAllocation.DpaStatus_layout",
    "Pcics.DynamicPowerAllocation.DpaControl_layout",
    "Pcics.DynamicPowerAllocation.DynamicPowerAllocation_bytes",
    "Pcics.DynamicPowerAllocation.DynamicPowerAllocation_expected_fails"
   ],
   "note": "The decoder is proved completely; the entry count named by the error is one too small (DynamicPowerAllocation_expected_fails)."
  },
  {
   "property": "C62",
   "status": "proved",
   "theorems": [
    "Pcics.ProtocolMultiplexing.PmuxSupportedLinkSpeeds_layout",
    "Pcics.ProtocolMultiplexing.PmuxCapability_layout",
    "Pcics.ProtocolMultiplexing.PmuxControl_layout",
    "Pcics.ProtocolMultiplexing.PmuxStatus_layout",
    "Pcics.ProtocolMultiplexing.ProtocolMultiplexing_bytes",
    "Pcics.ProtocolMultiplexing.PmuxProtocolArray_items",
    "Pcics.ProtocolMultiplexing.ProtocolMultiplexing_entries",
    "Pcics.ProtocolMultiplexing.PmuxProtocolArrayEntry_roundtrip"
   ],
   "note": ""
  },
  {
   "property": "C63",
   "status": "proved",
   "theorems": [
    "Pcics.TphRequester.StModeSelect_values",
    "Pcics.TphRequester.TphRequesterEnable_total",
    "Pcics.TphRequester.TphRequesterControl_layout",
    "Pcics.TphRequester.StTable_new",
    "Pcics.TphRequester.TphRequester_bytes"
   ],
   "note": ""
  },
  {
   "property": "C64",
   "status": "proved",
   "theorems": [
    "Pcics.Multicast.MulticastCapability_layout",
    "Pcics.Multicast.MulticastControl_layout",
    "Pcics.Multicast.McBaseAddress_layout",
    "Pcics.Multicast.McOverlayBar_layout",
    "Pcics.Multicast.Multicast_bytes"
   ],
   "note": ""
  },
  {
   "property": "C65",
   "status": "proved",
   "theorems": [
    "Pcics.PciExpressOverMphy.LaneWidthStatus_values",
    "Pcics.PciExpressOverMphy.PhyLocation_values",
    "Pcics.PciExpressOverMphy.MpcieLinkSpeed_layout",
    "Pcics.PciExpressOverMphy.LaneWidthSupported_layout",
    "Pcics.PciExpressOverMphy.MpcieCapabilities_layout",
    "Pcics.PciExpressOverMphy.MpcieControl_layout",
    "Pcics.PciExpressOverMphy.MpcieStatus_layout",
    "Pcics.PciExpressOverMphy.MpciePhyControlAddress_layout",
    "Pcics.PciExpressOverMphy.MpciePhyControlData_layout",
    "Pcics.PciExpressOverMphy.PciExpressOverMphy_bytes"
   ],
   "note": ""
  },
  {
   "property": "C66",
   "status": "proved",
   "theorems": [
    "Pcics.Header.ClassCode_meaning",
    "Pcics.Header.ClassCode_meaning_class",
    "Pcics.Header.ClassCode_meaning_sub",
    "Pcics.Header.ClassCode_meaning_interface"
   ],
   "note": "Proved as stated. The names and codes of the specification table are transcribed from the code, so the theorems check the selection logic, not the wording."
  },
  {
   "property": "C67",
   "status": "partial",
   "theorems": [
    "Pcics.EgressControlVectors_eq_iff",
    "Pcics.FunctionArbitrationTable_eq_iff",
    "Pcics.PmuxProtocolArray_eq_iff",
    "Pcics.ResizableBar_eq_iff",
    "Pcics.VcArbitrationTable_eq_iff",
    "Pcics.LinkEntries_eq_iff",
    "Pcics.LinkEntries_eq_ignores_state",
    "Pcics.PortArbitrationTable_eq_ignores_byte",
    "Pcics.PortArbitrationTable_eq_iff",
    "Pcics.PortArbitrationTable_eq_items_partial"
   ],
   "note": "False as stated for PortArbitrationTable, whose comparison omits the byte being split up (PortArbitrationTable_eq_ignores_byte), and for the public state of LinkEntries (LinkEntries_eq_ignores_state). Proved for the other five, for the items of LinkEntries, and for PortArbitrationTable at byte boundaries."
  },
  {
   "property": "C68",
   "status": "proved",
   "theorems": [
    "Pcics.cap_error_pointer",
    "Pcics.cap_error_size"
   ],
   "note": ""
  },
  {
   "property": "C69",
   "status": "partial",
   "theorems": [
    "Pcics.ExtendedCapabilities.ecap_error_offset",
    "Pcics.ExtendedCapabilities.ecap_error_size_partial",
    "Pcics.ExtendedCapabilities.ecap_error_size_vc",
    "Pcics.ExtendedCapabilities.ecap_error_size_ltr",
    "Pcics.ExtendedCapabilities.ecap_error_size_multicast"
   ],
   "note": "The offsets are proved. The size is false as stated for Virtual Channel (both ids; 8 named, 12 needed) and Multicast (48 named, 40 needed), see ecap_error_size_vc and ecap_error_size_multicast; proved for all other ids."
  },
  {
   "property": "C70",
   "status": "proved",
   "theorems": [
    "Pcics.Accessors.sata_bar_offset",
    "Pcics.Accessors.pcix_byte_count",
    "Pcics.Accessors.pcix_split_transactions",
    "Pcics.Accessors.pcix_adqs",
    "Pcics.Accessors.pcix_bytes",
    "Pcics.Accessors.pcix_mode_and_frequency_iff",
    "Pcics.Accessors.pcix_mode_and_frequency_panics",
    "Pcics.Accessors.msi_vectors",
    "Pcics.Accessors.function_entry_bits",
    "Pcics.Accessors.port_entry_bits",
    "Pcics.Accessors.function_table_panics",
    "Pcics.Accessors.port_table_panics"
   ],
   "note": ""
  },
  {
   "property": "C71",
   "status": "partial",
   "theorems": [
    "Pcics.FloatProps.rounding_to_nearest_even",
    "Pcics.FloatProps.slot_power_error",
    "Pcics.FloatProps.slot_power_whole_watts",
    "Pcics.FloatProps.slot_power_strictly_increasing",
    "Pcics.FloatProps.slot_power_not_nearest",
    "Pcics.FloatProps.slot_power_alternative_encodings_fail",
    "Pcics.FloatProps.slot_power_captured_partial",
    "Pcics.FloatProps.slot_power_limit_partial"
   ],
   "note": "False as stated: with scale 1 the values F0h to F2h (250, 275, 300 W) are read as 240 to 242 W (slot_power_alternative_encodings_fail), and the result is not always the nearest f32 (slot_power_not_nearest). Proved for every other register, with the error bound of the two roundings; exact in whole watts; strictly increasing."
  },
  {
   "property": "C72",
   "status": "partial",
   "theorems": [
    "Pcics.FloatProps.completion_timeout_ranges_fail",
    "Pcics.FloatProps.completion_timeout_ranges_partial",
    "Pcics.FloatProps.completion_timeout_f64_partial"
   ],
   "note": "False as stated: range C starts at 250 us (completion_timeout_ranges_fail). All other bounds are proved."
  },
  {
   "property": "C73",
   "status": "partial",
   "theorems": [
    "Pcics.FloatProps.multiplier_values",
    "Pcics.FloatProps.multiplier_f64",
    "Pcics.FloatProps.base_power_scaled_fails",
    "Pcics.FloatProps.base_power_partial"
   ],
   "note": "False as stated: F0h and above are taken for the alternative encodings whatever the scale (base_power_scaled_fails). Proved for all other registers."
  },
  {
   "property": "C74",
   "status": "proved",
   "theorems": [
    "Pcics.Defaults.header_defaults",
    "Pcics.Defaults.hypertransport_defaults",
    "Pcics.Defaults.msi_default_iff"
   ],
   "note": ""
  },
  {
   "property": "C75",
   "status": "proved",
   "theorems": [
    "Pcics.Header.bar_items_roundtrip_iff"
   ],
   "note": ""
  },
  {
   "property": "C76",
   "status": "partial",
   "theorems": [
    "Pcics.AcceleratedGraphicsPort.Identifier_reads",
    "Pcics.AcceleratedGraphicsPort.Status_reads",
    "Pcics.AcceleratedGraphicsPort.Command_reads",
    "Pcics.AcceleratedGraphicsPort.IsochronousStatus_reads",
    "Pcics.AcceleratedGraphicsPort.Control_reads",
    "Pcics.AcceleratedGraphicsPort.IsochronousCommand_reads",
    "Pcics.FlatteningPortalBridge.FpbCapabilities_reads",
    "Pcics.FlatteningPortalBridge.FpbVectorAccessControl_reads",
    "Pcics.Hypertransport.SlaveOrPrimaryCommand_reads",
    "Pcics.Hypertransport.LinkControl_reads",
    "Pcics.Hypertransport.LinkConfiguration_reads",
    "Pcics.Hypertransport.RevisionId_reads",
    "Pcics.Hypertransport.LinkFrequencyCapability_reads",
    "Pcics.Hypertransport.FeatureCapability_reads",
    "Pcics.Hypertransport.ErrorHandling_reads",
    "Pcics.Hypertransport.HostOrSecondaryCommand_reads",
    "Pcics.MessageSignaledInterrups.MessageControl_reads",
    "Pcics.MsiX.MessageControl_reads",
    "Pcics.MsiX.Table_reads",
    "Pcics.MsiX.PendingBitArray_reads",
    "Pcics.PciExpress.DeviceControl_reads",
    "Pcics.PciExpress.DeviceStatus_reads",
    "Pcics.PciExpress.LinkCapabilities_reads",
    "Pcics.PciExpress.LinkControl_reads",
    "Pcics.PciExpress.LinkStatus_reads",
    "Pcics.PciExpress.SlotControl_reads",
    "Pcics.PciExpress.SlotStatus_reads",
    "Pcics.PciExpress.RootControl_reads",
    "Pcics.PciExpress.RootCapabilities_reads",
    "Pcics.PciExpress.RootStatus_reads",
    "Pcics.PciExpress.DeviceCapabilities2_reads",
    "Pcics.PciExpress.DeviceControl2_reads",
    "Pcics.PciExpress.SupportedLinkSpeedsVector_reads",
    "Pcics.PciExpress.LinkCapabilities2_reads",
    "Pcics.PciExpress.LinkControl2_reads",
    "Pcics.PciExpress.LinkStatus2_reads",
    "Pcics.PciExpress.DeviceCapabilities_reads",
    "Pcics.PciExpress.SlotCapabilities_reads",
    "Pcics.PciX.Command_reads",
    "Pcics.PciX.Status_reads",
    "Pcics.PciX.Syndrome_reads",
    "Pcics.PciX.BridgeStatus_reads",
    "Pcics.PciX.SecondaryStatus_reads",
    "Pcics.PciX.EccControlAndStatus_reads_partial",
    "Pcics.PciX.EccControlAndStatus_loses",
    "Pcics.PowerManagementInterface.Capabilities_reads",
    "Pcics.PowerManagementInterface.Control_reads",
    "Pcics.PowerManagementInterface.Bridge_reads",
    "Pcics.AccessControlServices.AcsControl_reads",
    "Pcics.AddressTranslationServices.AtsCapability_reads",
    "Pcics.AddressTranslationServices.AtsControl_reads",
    "Pcics.AdvancedErrorReporting.UncorrectableError_reads",
    "Pcics.AdvancedErrorReporting.CorrectableError_reads",
    "Pcics.AdvancedErrorReporting.AdvancedErrorCapabilitiesAndControl_reads",
    "Pcics.AdvancedErrorReporting.RootErrorCommand_reads",
    "Pcics.AdvancedErrorReporting.RootErrorStatus_reads",
    "Pcics.AlternativeRoutingIdInterpolation.AriCapability_reads",
    "Pcics.AlternativeRoutingIdInterpolation.AriControl_reads",
    "Pcics.ComputeExpressLink.CxlCapability_reads",
    "Pcics.ComputeExpressLink.CxlControl_reads",
    "Pcics.ComputeExpressLink.CxlStatus_reads",
    "Pcics.ComputeExpressLink.CxlControl2_reads",
    "Pcics.ComputeExpressLink.CxlStatus2_reads",
    "Pcics.ComputeExpressLink.CxlLock_reads",
    "Pcics.ComputeExpressLink.CxlCapability2_reads",
    "Pcics.ComputeExpressLink.CxlRangeSize_reads",
    "Pcics.ComputeExpressLink.CxlRangeBase_reserved_kept",
    "Pcics.ComputeExpressLink.CxlRangeBase_reads_partial",
    "Pcics.DownstreamPortContainment.DpcCapability_reads",
    "Pcics.DownstreamPortContainment.DpcControl_reads",
    "Pcics.DownstreamPortContainment.RpPio_reads",
    "Pcics.DownstreamPortContainment.DpcStatus_reads",
    "Pcics.DynamicPowerAllocation.DpaCapability_reads",
    "Pcics.DynamicPowerAllocation.DpaStatus_reads",
    "Pcics.DynamicPowerAllocation.DpaControl_reads",
    "Pcics.FrsQueuing.FrsQueuingCapability_reads",
    "Pcics.FrsQueuing.FrsQueuingStatus_reads",
    "Pcics.FrsQueuing.FrsQueuingControl_reads",
    "Pcics.FrsQueuing.FrsMessageQueue_reads",
    "Pcics.LatencyToleranceReporting.MaxLatency_reads",
    "Pcics.LnRequester.LnrCapability_reads",
    "Pcics.LnRequester.LnrControl_reads",
    "Pcics.Multicast.MulticastCapability_reads",
    "Pcics.Multicast.MulticastControl_reads",
    "Pcics.Multicast.McBaseAddress_reads",
    "Pcics.Multicast.McOverlayBar_reads",
    "Pcics.MultifunctionVirtualChannel.PortVcCapability1_reads",
    "Pcics.MultifunctionVirtualChannel.VcResourceCapability_reads",
    "Pcics.MultifunctionVirtualChannel.VcResourceControl_reads",
    "Pcics.MultifunctionVirtualChannel.VcResourceStatus_reads",
    "Pcics.PciExpressOverMphy.MpcieLinkSpeed_reads",
    "Pcics.PciExpressOverMphy.LaneWidthSupported_reads",
    "Pcics.PciExpressOverMphy.MpcieCapabilities_reads",
    "Pcics.PciExpressOverMphy.MpcieControl_reads",
    "Pcics.PciExpressOverMphy.MpcieStatus_reads",
    "Pcics.PciExpressOverMphy.MpciePhyControlAddress_reads",
    "Pcics.PciExpressOverMphy.MpciePhyControlData_reads",
    "Pcics.PrecisionTimeMeasurement.PtmCapability_reads",
    "Pcics.PrecisionTimeMeasurement.PtmControl_reads",
    "Pcics.ProcessAddressSpaceId.PacidCapability_reads",
    "Pcics.ProcessAddressSpaceId.PacidControl_reads",
    "Pcics.ProtocolMultiplexing.PmuxSupportedLinkSpeeds_reads",
    "Pcics.ProtocolMultiplexing.PmuxCapability_reads",
    "Pcics.ProtocolMultiplexing.PmuxControl_reads",
    "Pcics.ProtocolMultiplexing.PmuxStatus_reads",
    "Pcics.ReadinessTimeReporting.ReadinessTime_reads",
    "Pcics.ResizableBar.ResizableBarControl_reads",
    "Pcics.RootComplexInternalLinkControl.RootComplexLinkCapabilities_reads",
    "Pcics.RootComplexInternalLinkControl.RootComplexLinkControl_reads",
    "Pcics.RootComplexInternalLinkControl.RootComplexLinkStatus_reads",
    "Pcics.RootComplexLinkDeclaration.ElementSelfDescription_reads",
    "Pcics.RootComplexLinkDeclaration.LinkDescription_reads",
    "Pcics.RootComplexRegisterBlockHeader.RcrbCapabilities_reads",
    "Pcics.RootComplexRegisterBlockHeader.RcrbControl_reads",
    "Pcics.SecondaryPciExpress.LinkControl3_reads",
    "Pcics.SecondaryPciExpress.LaneEqualizationControl_reads",
    "Pcics.SingleRootIoVirtualization.SriovCapabilities_reads",
    "Pcics.SingleRootIoVirtualization.SriovControl_reads",
    "Pcics.SingleRootIoVirtualization.SriovStatus_reads",
    "Pcics.TphRequester.TphRequesterControl_reads",
    "Pcics.VirtualChannel.PortVcCapability1_reads",
    "Pcics.VirtualChannel.VcResourceCapability_reads",
    "Pcics.VirtualChannel.VcResourceControl_reads",
    "Pcics.VirtualChannel.VcResourceStatus_reads",
    "Pcics.VirtualChannel.PortVcCapability2_reads",
    "Pcics.VirtualChannel.PortVcControl_reads",
    "Pcics.VirtualChannel.PortVcStatus_reads",
    "Pcics.Header.Command_reads",
    "Pcics.Header.Status_reads",
    "Pcics.Header.BridgeControl_reads",
    "Pcics.Header.CardbusBridgeControl_reads",
    "Pcics.Header.BuiltInSelfTest_reads",
    "Pcics.Header.ExpansionRom_reads"
   ],
   "note": "False as stated for two registers: the PCI-X ECC control and status register does not tell the reserved error phases 6 and 7 apart (EccControlAndStatus_loses; EccControlAndStatus_reads_partial is the exact equivalence), and the CXL range base keeps the reserved bits 27:0 of its low register (CxlRangeBase_reserved_kept; CxlRangeBase_reads_partial). Proved for every other register type, 130 in all; for the DPC status register the mask depends on the trigger reason, as in the specification."
  },
  {
   "property": "C77",
   "status": "partial",
   "theorems": [
    "Pcics.Frame.cap_frame_partial",
    "Pcics.Frame.cap_walk_frame_partial",
    "Pcics.Frame.agp_takes_foreign_bytes",
    "Pcics.Frame.pcie_v1_needs_foreign_bytes",
    "Pcics.Frame.pcie_own",
    "Pcics.Frame.agp_own"
   ],
   "note": "False as stated: bytes following an AGP structure of a revision before 3 are taken for revision 3 registers (agp_takes_foreign_bytes), and a complete PCI Express version 1 structure at the end of the region is rejected for lack of slot registers (pcie_v1_needs_foreign_bytes). Proved with these bytes counted in; Enhanced Allocation is compared by its header fields and the entries its iterator gives, since it keeps the rest of the region. The registers every AGP revision has are its own whatever follows (agp_own); of PCI Express only the number of bytes that follow matters (pcie_own)."
  },
  {
   "property": "C78",
   "status": "partial",
   "theorems": [
    "Pcics.ExtendedCapabilities.ecap_frame_partial",
    "Pcics.ExtendedCapabilities.ecap_walk_frame_partial",
    "Pcics.ExtendedCapabilities.aer_takes_foreign_bytes",
    "Pcics.ExtendedCapabilities.multicast_takes_foreign_bytes",
    "Pcics.ExtendedCapabilities.aer_own",
    "Pcics.ExtendedCapabilities.multicast_own"
   ],
   "note": "False as stated: bytes following an Advanced Error Reporting structure without root port registers are taken for these (aer_takes_foreign_bytes), bytes following a 40 byte Multicast structure for an overlay BAR (multicast_takes_foreign_bytes). Proved with these bytes counted in, and with the registers of the thirteen ids of C27 at the start of the space. Nothing else is taken from what follows (aer_own, multicast_own)."
  },
  {
   "property": "C79",
   "status": "proved",
   "theorems": [
    "Pcics.cap_error_text",
    "Pcics.ecap_error_text",
    "Pcics.cap_error_text_injective",
    "Pcics.ecap_error_text_injective"
   ],
   "note": ""
  },
  {
   "property": "C80",
   "status": "partial",
   "theorems": [
    "Pcics.cap_pointer_text_fails",
    "Pcics.cap_pointer_text_partial",
    "Pcics.ecap_offset_text",
    "Pcics.vendor_length_text_fails",
    "Pcics.vendor_length_text_partial",
    "Pcics.vendor_data_text",
    "Pcics.virtio_size_text",
    "Pcics.pci_express_text",
    "Pcics.enhanced_allocation_text_fails",
    "Pcics.enhanced_allocation_text_partial",
    "Pcics.link_entries_text_fails",
    "Pcics.link_entries_text_partial",
    "Pcics.link_declaration_text",
    "Pcics.resizable_bar_text",
    "Pcics.dpc_text",
    "Pcics.mfvc_text",
    "Pcics.pmux_text",
    "Pcics.dpa_text_fails",
    "Pcics.dpa_text_partial",
    "Pcics.dvsec_text",
    "Pcics.vendor_specific_says",
    "Pcics.pci_express_says",
    "Pcics.link_declaration_says",
    "Pcics.mfvc_says",
    "Pcics.dpc_says",
    "Pcics.resizable_bar_says",
    "Pcics.dpa_says",
    "Pcics.pmux_says",
    "Pcics.dvsec_says"
   ],
   "note": "False as stated for five texts: a capability pointer of 0x40 is accepted though it 'should be greater than 0x40' (cap_pointer_text_fails); a vendor specific length of 2 is reported as 'unable to get 0 bytes data' (vendor_length_text_fails); one link entry is accepted though the number 'must be > 1' (link_entries_text_fails); the missing second DW of an Enhanced Allocation bridge is reported as an unreadable number of entries (enhanced_allocation_text_fails); the expected number of power allocation entries is one too small (dpa_text_fails). For each the limit that is enforced is proved; all other texts with a limit are proved."
  },
  {
   "property": "C81",
   "status": "partial",
   "theorems": [
    "Pcics.ExtendedCapabilities.ecap_named_not_decoded",
    "Pcics.ExtendedCapabilities.ecap_id_le",
    "Pcics.ExtendedCapabilities.ecap_named_decoded_partial"
   ],
   "note": "False as stated: Shadow Functions (0x2d) to Flit Error Injection (0x34) have variants and ids but are decoded as Reserved (ecap_named_not_decoded). Proved for all ids up to 0x2c; all other ids have no variant."
  },
  {
   "property": "C82",
   "status": "proved",
   "theorems": [
    "Pcics.dump_parts",
    "Pcics.dump_short",
    "Pcics.dump_lengths",
    "Pcics.dump_capabilities",
    "Pcics.dump_capabilities_end",
    "Pcics.dump_extended_capabilities",
    "Pcics.dump_extended_kind",
    "Pcics.dump_never_panics"
   ],
   "note": ""
  },
  {
   "property": "C83",
   "status": "partial",
   "theorems": [
    "Pcics.cap_list_bit_fails",
    "Pcics.cap_list_bit_partial"
   ],
   "note": "False as stated: the bit is never consulted (cap_list_bit_fails). Proved: whatever the bit, the walk is empty exactly when the pointer register is zero above its reserved bits or the layout is reserved."
  },
  {
   "property": "C84",
   "status": "partial",
   "theorems": [
    "Pcics.cap_link_bits_fail",
    "Pcics.cap_link_bits_partial",
    "Pcics.ecap_link_bits_fail",
    "Pcics.ecap_link_bits_partial"
   ],
   "note": "False as stated: next pointers and next offsets are followed as they are (cap_link_bits_fail, ecap_link_bits_fail). Proved: the walks are those through masked links wherever the reserved bits met are zero."
  },
  {
   "property": "C85",
   "status": "proved",
   "theorems": [
    "Pcics.PciExpress.link_speed_order",
    "Pcics.PciExpress.link_speed_reserved",
    "Pcics.PciExpress.link_width_order",
    "Pcics.PciExpress.link_width_reserved",
    "Pcics.PciExpress.link_speed_total",
    "Pcics.PciExpress.link_width_total",
    "Pcics.PciExpress.link_speed_codes",
    "Pcics.PciExpress.link_width_codes"
   ],
   "note": ""
  },
  {
   "property": "C86",
   "status": "proved",
   "theorems": [
    "Pcics.rebar_fused",
    "Pcics.pmux_fused",
    "Pcics.lanes_fused",
    "Pcics.links_fused",
    "Pcics.egress_fused",
    "Pcics.vc_table_fused",
    "Pcics.port_table_fused",
    "Pcics.function_table_fused",
    "Pcics.evc_fused",
    "Pcics.mfvc_fused",
    "Pcics.ea_fused",
    "Pcics.bar_fused",
    "Pcics.cap_fused",
    "Pcics.ecap_fused"
   ],
   "note": ""
  },
  {
   "property": "C87",
   "status": "proved",
   "theorems": [
    "Pcics.rebar_at_most",
    "Pcics.pmux_at_most",
    "Pcics.lanes_at_most",
    "Pcics.links_at_most",
    "Pcics.egress_at_most",
    "Pcics.vc_table_at_most",
    "Pcics.port_table_at_most",
    "Pcics.function_table_at_most",
    "Pcics.evc_at_most",
    "Pcics.mfvc_at_most",
    "Pcics.ea_entries_at_most",
    "Pcics.bar_at_most"
   ],
   "note": ""
  },
  {
   "property": "C88",
   "status": "partial",
   "theorems": [
    "Pcics.Header.window_limit_too_low",
    "Pcics.Header.bridge_io_window_partial",
    "Pcics.Header.bridge_prefetchable_window_partial",
    "Pcics.Header.cardbus_io_window_partial",
    "Pcics.Header.bridge_window_empty_iff"
   ],
   "note": "False as stated: the decoded limit is the start of the last forwarded block (window_limit_too_low). Proved: addresses from the decoded base to the end of that block are exactly those forwarded."
  },
  {
   "property": "C89",
   "status": "partial",
   "theorems": [
    "Pcics.Encode.BuiltInSelfTest_redecode",
    "Pcics.Encode.BuiltInSelfTest_restored",
    "Pcics.Encode.ExpansionRom_redecode",
    "Pcics.Encode.ExpansionRom_restored_partial",
    "Pcics.Encode.ExpansionRom_spills",
    "Pcics.Encode.IoAccessAddressRange_redecode_partial",
    "Pcics.Encode.MaxLatency_redecode",
    "Pcics.Encode.MaxLatency_restored_partial",
    "Pcics.Encode.L1PmSubstates_redecode",
    "Pcics.Encode.L1PmSubstates_restored_partial",
    "Pcics.Encode.L1PmSubstates_spills",
    "Pcics.Encode.VcResourceCapability_redecode",
    "Pcics.Encode.VcResourceCapability_restored",
    "Pcics.Encode.VcResourceControl_redecode",
    "Pcics.Encode.VcResourceControl_restored_partial",
    "Pcics.Encode.VcResourceControl_spills",
    "Pcics.Encode.VcResourceStatus_restored",
    "Pcics.Encode.ExtendedVirtualChannel_redecode",
    "Pcics.Encode.ExtendedVirtualChannel_restored",
    "Pcics.Encode.LinkAddress_memory_restored",
    "Pcics.Encode.LinkAddress_configuration_restored_partial",
    "Pcics.Encode.LinkAddress_spills",
    "Pcics.Encode.RevisionId_redecode",
    "Pcics.Encode.RevisionId_restored",
    "Pcics.Encode.InterruptPin_restored",
    "Pcics.Encode.ElementType_restored",
    "Pcics.Encode.CalCycle_restored",
    "Pcics.Encode.DataRateSupport_restored",
    "Pcics.Encode.DataRateEnabled_restored",
    "Pcics.Encode.LinkSpeed_restored",
    "Pcics.Encode.LinkWidth_restored",
    "Pcics.Encode.CompletionTimeoutRanges_restored",
    "Pcics.Encode.CompletionTimeoutValue_restored",
    "Pcics.Encode.DataSelect_restored",
    "Pcics.Encode.PortArbitrationSelect_restored",
    "Pcics.Encode.FunctionArbitrationSelect_restored",
    "Pcics.Encode.plain_enumerations_restored",
    "Pcics.Encode.CacheSfCoverage_restored"
   ],
   "note": "Refuted for ExpansionRom, MaxLatency, the L1 threshold, VcResourceControl, LinkAddress and 32-bit CardBus I/O windows (fields are or-ed without being cut; witnesses in *_spills). Proved for every type: what comes back exactly (*_redecode) or exactly which values are restored (*_restored)."
  },
  {
   "property": "C90",
   "status": "partial",
   "theorems": [
    "Pcics.Width.pcix_status",
    "Pcics.Width.pcix_command",
    "Pcics.Width.pcix_any",
    "Pcics.Width.entry_sizes",
    "Pcics.Width.t_power_on",
    "Pcics.Width.offsets",
    "Pcics.Width.max_latency_width_fails",
    "Pcics.Width.max_latency_any",
    "Pcics.Width.max_latency_width_partial",
    "Pcics.Width.max_latency_32"
   ],
   "note": "False as stated for MaxLatency::value: with 32 bits the value bits from 7 on are lost at scale 5 (max_latency_width_fails, max_latency_32). Proved: it is exact for every register exactly from 35 bits on; everything else is the same for every width from 16 bits on."
  },
  {
   "property": "C91",
   "status": "proved",
   "theorems": [
    "Pcics.ExtendedCapabilities.ecap_walk_says",
    "Pcics.msi_says",
    "Pcics.pci_x_says",
    "Pcics.pci_x_bridge_says",
    "Pcics.hypertransport_says",
    "Pcics.vendor_specific_says",
    "Pcics.pci_express_says",
    "Pcics.aer_says",
    "Pcics.link_declaration_says",
    "Pcics.mfvc_says",
    "Pcics.dpc_says",
    "Pcics.resizable_bar_says",
    "Pcics.dpa_says",
    "Pcics.pmux_says",
    "Pcics.dvsec_says",
    "Pcics.cap_walk_says"
   ],
   "note": ""
  },
  {
   "property": "C92",
   "status": "proved",
   "theorems": [
    "Pcics.ExtendedCapabilities.ecap_more_bytes",
    "Pcics.ExtendedCapabilities.ecap_walk_more_bytes",
    "Pcics.cap_more_bytes",
    "Pcics.cap_walk_more_bytes"
   ],
   "note": ""
  },
  {
   "property": "C93",
   "status": "proved",
   "theorems": [
    "Pcics.cap_derived_values",
    "Pcics.ecap_derived_values"
   ],
   "note": ""
  },
  {
   "property": "C94",
   "status": "proved",
   "theorems": [
    "Pcics.cap_walk_periodic",
    "Pcics.cap_walk_first_calls",
    "Pcics.cap_walk_pointer_twice",
    "Pcics.ExtendedCapabilities.ecap_walk_periodic",
    "Pcics.ExtendedCapabilities.ecap_walk_first_calls",
    "Pcics.ExtendedCapabilities.ecap_walk_offset_twice"
   ],
   "note": ""
  },
  {
   "property": "C95",
   "status": "proved",
   "theorems": [
    "Pcics.Header.header_eq_any",
    "Pcics.Header.header_eq_iff",
    "Pcics.Header.header_eq_equivalence"
   ],
   "note": ""
  },
  {
   "property": "C96",
   "status": "partial",
   "theorems": [
    "Pcics.Frame.cap_eq_own_partial",
    "Pcics.Frame.ea_eq_foreign_bytes",
    "Pcics.Frame.ea_eq_all_bytes",
    "Pcics.ExtendedCapabilities.ecap_eq_iff",
    "Pcics.ExtendedCapabilities.links_eq_iff",
    "Pcics.ExtendedCapabilities.ecap_links_eq_iff",
    "Pcics.ExtendedCapabilities.ecap_eq_own_partial",
    "Pcics.ExtendedCapabilities.acs_eq_foreign_bytes",
    "Pcics.ExtendedCapabilities.vc_eq_all_bytes",
    "Pcics.ExtendedCapabilities.secondary_eq_all_bytes",
    "Pcics.ExtendedCapabilities.acs_eq_all_bytes",
    "Pcics.ExtendedCapabilities.tph_eq_all_bytes",
    "Pcics.ExtendedCapabilities.mfvc_eq_all_bytes"
   ],
   "note": "False as stated: Enhanced Allocation and Access Control Services values keep all bytes that follow and compare them (ea_eq_foreign_bytes, acs_eq_foreign_bytes). Proved: every kind that keeps no foreign bytes compares equal when the structures agree; what the comparison of every extended capability amounts to; for Virtual Channels, Access Control Services and Secondary PCI Express exactly which bytes are compared (*_eq_all_bytes)."
  },
  {
   "property": "C97",
   "status": "proved",
   "theorems": [
    "Pcics.port_table_calls_any",
    "Pcics.function_table_calls_any",
    "Pcics.rebar_calls",
    "Pcics.pmux_calls",
    "Pcics.lanes_calls",
    "Pcics.links_calls",
    "Pcics.egress_calls",
    "Pcics.vc_table_calls",
    "Pcics.port_table_calls",
    "Pcics.function_table_calls",
    "Pcics.evc_calls",
    "Pcics.mfvc_calls",
    "Pcics.ea_calls",
    "Pcics.bar_calls"
   ],
   "note": ""
  },
  {
   "property": "C98",
   "status": "proved",
   "theorems": [
    "Pcics.Header.bar_collect_registers"
   ],
   "note": ""
  },
  {
   "property": "C99",
   "status": "proved",
   "theorems": [
    "Pcics.Accessors.slave_frequencies_any",
    "Pcics.Accessors.host_frequency_any",
    "Pcics.Accessors.slave_frequencies",
    "Pcics.Accessors.host_frequency",
    "Pcics.Accessors.bar_original"
   ],
   "note": ""
  }
 ]
}
