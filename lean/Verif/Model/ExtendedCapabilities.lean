import Verif.Model.Ext.AccessControlServices
import Verif.Model.Ext.AddressTranslationServices
import Verif.Model.Ext.AdvancedErrorReporting
import Verif.Model.Ext.AlternativeRoutingIdInterpolation
import Verif.Model.Ext.ConfigurationAccessCorrelation
import Verif.Model.Ext.DesignatedVendorSpecificExtendedCapability
import Verif.Model.Ext.DeviceSerialNumber
import Verif.Model.Ext.DownstreamPortContainment
import Verif.Model.Ext.DynamicPowerAllocation
import Verif.Model.Ext.FrsQueuing
import Verif.Model.Ext.L1PmSubstates
import Verif.Model.Ext.LatencyToleranceReporting
import Verif.Model.Ext.LnRequester
import Verif.Model.Ext.Multicast
import Verif.Model.Ext.MultifunctionVirtualChannel
import Verif.Model.Ext.PageRequestInterface
import Verif.Model.Ext.PciExpressOverMphy
import Verif.Model.Ext.PowerBudgeting
import Verif.Model.Ext.PrecisionTimeMeasurement
import Verif.Model.Ext.ProcessAddressSpaceId
import Verif.Model.Ext.ProtocolMultiplexing
import Verif.Model.Ext.ReadinessTimeReporting
import Verif.Model.Ext.ResizableBar
import Verif.Model.Ext.RootComplexEventCollectorEndpointAssociation
import Verif.Model.Ext.RootComplexInternalLinkControl
import Verif.Model.Ext.RootComplexLinkDeclaration
import Verif.Model.Ext.RootComplexRegisterBlockHeader
import Verif.Model.Ext.SecondaryPciExpress
import Verif.Model.Ext.SingleRootIoVirtualization
import Verif.Model.Ext.TphRequester
import Verif.Model.Ext.VendorSpecificExtendedCapability
import Verif.Model.Ext.VirtualChannel
/- src/extended_capabilities.rs: the extended capability list iterator and the dispatch on the
extended capability id. -/

namespace Pcics.ExtendedCapabilities

/-- src/lib.rs:23 -/
def ECS_OFFSET : Nat := 0x100

/-- src/extended_capabilities.rs:107 -/
def ECH_BYTES : Nat := 4

/-- src/extended_capabilities.rs:111-171; the variant `SingleRootIoVirtualization` (131-135), which
is constructed nowhere, is left out. -/
inductive ExtendedCapabilityError where
  | Offset
  | Header (offset : U16)
  | EmptyHeader (offset : U16)
  | Data (offset : U16) (source : ExtendedCapabilityDataError)
  | RootComplexLinkDeclaration (offset : U16)
      (source : RootComplexLinkDeclaration.RootComplexLinkDeclarationError)
  | MultifunctionVirtualChannel (offset : U16)
      (source : MultifunctionVirtualChannel.MultifunctionVirtualChannelError)
  | AdvancedErrorReporting (offset : U16)
      (source : AdvancedErrorReporting.AdvancedErrorReportingError)
  | DownstreamPortContainment (offset : U16)
      (source : DownstreamPortContainment.DownstreamPortContainmentError)
  | ResizableBar (offset : U16) (source : ResizableBar.ResizableBarError)
  | DynamicPowerAllocation (offset : U16)
      (source : DynamicPowerAllocation.DynamicPowerAllocationError)
  | ProtocolMultiplexing (offset : U16) (source : ProtocolMultiplexing.ProtocolMultiplexingError)
  | DesignatedVendorSpecificExtendedCapability (offset : U16)
      (source : DesignatedVendorSpecificExtendedCapability.DesignatedVendorSpecificExtendedCapabilityError)
  | VfResizableBar (offset : U16) (source : ResizableBar.ResizableBarError)
  deriving DecidableEq, Repr

/-- src/extended_capabilities.rs:517-629; the marker types without content (multi-root I/O
virtualization, ...) are constructors without argument. -/
inductive ExtendedCapabilityKind where
  | Null
  | AdvancedErrorReporting (v : AdvancedErrorReporting.AdvancedErrorReporting)
  | VirtualChannel (v : VirtualChannel.VirtualChannel)
  | DeviceSerialNumber (v : DeviceSerialNumber.DeviceSerialNumber)
  | PowerBudgeting (v : PowerBudgeting.PowerBudgeting)
  | RootComplexLinkDeclaration (v : RootComplexLinkDeclaration.RootComplexLinkDeclaration)
  | RootComplexInternalLinkControl
      (v : RootComplexInternalLinkControl.RootComplexInternalLinkControl)
  | RootComplexEventCollectorEndpointAssociation
      (v : RootComplexEventCollectorEndpointAssociation.RootComplexEventCollectorEndpointAssociation)
  | MultifunctionVirtualChannel (v : MultifunctionVirtualChannel.MultifunctionVirtualChannel)
  | VirtualChannelMfvcPresent (v : VirtualChannel.VirtualChannel)
  | RootComplexRegisterBlockHeader
      (v : RootComplexRegisterBlockHeader.RootComplexRegisterBlockHeader)
  | VendorSpecificExtendedCapability
      (v : VendorSpecificExtendedCapability.VendorSpecificExtendedCapability)
  | ConfigurationAccessCorrelation
      (v : ConfigurationAccessCorrelation.ConfigurationAccessCorrelation)
  | AccessControlServices (v : AccessControlServices.AccessControlServices)
  | AlternativeRoutingIdInterpretation
      (v : AlternativeRoutingIdInterpolation.AlternativeRoutingIdInterpretation)
  | AddressTranslationServices (v : AddressTranslationServices.AddressTranslationServices)
  | SingleRootIoVirtualization (v : SingleRootIoVirtualization.SingleRootIoVirtualization)
  | MultiRootIoVirtualization
  | Multicast (v : Multicast.Multicast)
  | PageRequestInterface (v : PageRequestInterface.PageRequestInterface)
  | ReservedForAmd
  | ResizableBar (v : ResizableBar.ResizableBar)
  | DynamicPowerAllocation (v : DynamicPowerAllocation.DynamicPowerAllocation)
  | TphRequester (v : TphRequester.TphRequester)
  | LatencyToleranceReporting (v : LatencyToleranceReporting.LatencyToleranceReporting)
  | SecondaryPciExpress (v : SecondaryPciExpress.SecondaryPciExpress)
  | ProtocolMultiplexing (v : ProtocolMultiplexing.ProtocolMultiplexing)
  | ProcessAddressSpaceId (v : ProcessAddressSpaceId.ProcessAddressSpaceId)
  | LnRequester (v : LnRequester.LnRequester)
  | DownstreamPortContainment (v : DownstreamPortContainment.DownstreamPortContainment)
  | L1PmSubstates (v : L1PmSubstates.L1PmSubstates)
  | PrecisionTimeMeasurement (v : PrecisionTimeMeasurement.PrecisionTimeMeasurement)
  | PciExpressOverMphy (v : PciExpressOverMphy.PciExpressOverMphy)
  | FrsQueuing (v : FrsQueuing.FrsQueuing)
  | ReadinessTimeReporting (v : ReadinessTimeReporting.ReadinessTimeReporting)
  | DesignatedVendorSpecificExtendedCapability
      (v : DesignatedVendorSpecificExtendedCapability.DesignatedVendorSpecificExtendedCapability)
  | VfResizableBar (v : ResizableBar.ResizableBar)
  | DataLinkFeature
  | PhysicalLayer16GTps
  | LaneMarginingAtTheReceiver
  | HierarchyId
  | NativePcieEnclosureManagement
  | PhysicalLayer32GTps
  | AlternateProtocol
  | SystemFirmwareIntermediary
  | ShadowFunctions
  | DataObjectExchange
  | Device3
  | IntegrityAndDataEncryption
  | PhysicalLayer64GTps
  | FlitLogging
  | FlitPerformanceMeasurement
  | FlitErrorInjection
  | Reserved (id : U16)
  deriving DecidableEq, Repr

/-- src/extended_capabilities.rs:448-453 -/
structure ExtendedCapability where
  kind : ExtendedCapabilityKind
  version : U8
  offset : U16
  deriving DecidableEq, Repr

/-- src/extended_capabilities.rs:457-514 -/
def ExtendedCapability.id (c : ExtendedCapability) : U16 :=
  match c.kind with
  | .Null => 0x0000
  | .AdvancedErrorReporting _ => 0x0001
  | .VirtualChannel _ => 0x0002
  | .DeviceSerialNumber _ => 0x0003
  | .PowerBudgeting _ => 0x0004
  | .RootComplexLinkDeclaration _ => 0x0005
  | .RootComplexInternalLinkControl _ => 0x0006
  | .RootComplexEventCollectorEndpointAssociation _ => 0x0007
  | .MultifunctionVirtualChannel _ => 0x0008
  | .VirtualChannelMfvcPresent _ => 0x0009
  | .RootComplexRegisterBlockHeader _ => 0x000a
  | .VendorSpecificExtendedCapability _ => 0x000b
  | .ConfigurationAccessCorrelation _ => 0x000c
  | .AccessControlServices _ => 0x000d
  | .AlternativeRoutingIdInterpretation _ => 0x000e
  | .AddressTranslationServices _ => 0x000f
  | .SingleRootIoVirtualization _ => 0x0010
  | .MultiRootIoVirtualization => 0x0011
  | .Multicast _ => 0x0012
  | .PageRequestInterface _ => 0x0013
  | .ReservedForAmd => 0x0014
  | .ResizableBar _ => 0x0015
  | .DynamicPowerAllocation _ => 0x0016
  | .TphRequester _ => 0x0017
  | .LatencyToleranceReporting _ => 0x0018
  | .SecondaryPciExpress _ => 0x0019
  | .ProtocolMultiplexing _ => 0x001a
  | .ProcessAddressSpaceId _ => 0x001b
  | .LnRequester _ => 0x001c
  | .DownstreamPortContainment _ => 0x001d
  | .L1PmSubstates _ => 0x001e
  | .PrecisionTimeMeasurement _ => 0x001f
  | .PciExpressOverMphy _ => 0x0020
  | .FrsQueuing _ => 0x0021
  | .ReadinessTimeReporting _ => 0x0022
  | .DesignatedVendorSpecificExtendedCapability _ => 0x0023
  | .VfResizableBar _ => 0x0024
  | .DataLinkFeature => 0x0025
  | .PhysicalLayer16GTps => 0x0026
  | .LaneMarginingAtTheReceiver => 0x0027
  | .HierarchyId => 0x0028
  | .NativePcieEnclosureManagement => 0x0029
  | .PhysicalLayer32GTps => 0x002a
  | .AlternateProtocol => 0x002b
  | .SystemFirmwareIntermediary => 0x002c
  | .ShadowFunctions => 0x002d
  | .DataObjectExchange => 0x002e
  | .Device3 => 0x002f
  | .IntegrityAndDataEncryption => 0x0030
  | .PhysicalLayer64GTps => 0x0031
  | .FlitLogging => 0x0032
  | .FlitPerformanceMeasurement => 0x0033
  | .FlitErrorInjection => 0x0034
  | .Reserved v => v

/-- src/extended_capabilities.rs:214-230 -/
structure ExtendedCapabilityHeader where
  extended_capability_id : U16
  capability_version : U8
  next_capability_offset : U16
  deriving DecidableEq, Repr

/-- src/extended_capabilities.rs:232-245; `P3::<_, 16, 4, 12>`, also used at line 282 -/
def ExtendedCapabilityHeader.ofU32 (dword : U32) : ExtendedCapabilityHeader :=
  runBits dword do
    let extended_capability_id ← bits 16
    let capability_version ← bits 4
    let next_capability_offset ← bits 12
    pure { extended_capability_id, capability_version, next_capability_offset }

/-- src/extended_capabilities.rs:288-438: the `match id` of `parse_ecap`; `bytes` is the whole
extended configuration space, `ecap_data` what follows the header of the capability;
`.context(XSnafu { offset })` is `mapErr (X offset)`. -/
def decodeKind (offset id : U16) (ecap_data bytes : Bytes) :
    Res ExtendedCapabilityError ExtendedCapabilityKind :=
  match id.toNat with
  | 0x0000 => .ok .Null
  | 0x0001 => ((AdvancedErrorReporting.AdvancedErrorReporting.ofBytes ecap_data).map'
      .AdvancedErrorReporting).mapErr (.AdvancedErrorReporting offset)
  | 0x0002 => ((VirtualChannel.VirtualChannel.ofBytes ecap_data).map'
      .VirtualChannel).mapErr (.Data offset)
  | 0x0003 => ((DeviceSerialNumber.DeviceSerialNumber.ofBytes ecap_data).map'
      .DeviceSerialNumber).mapErr (.Data offset)
  | 0x0004 => ((PowerBudgeting.PowerBudgeting.ofBytes ecap_data).map'
      .PowerBudgeting).mapErr (.Data offset)
  | 0x0005 => ((RootComplexLinkDeclaration.RootComplexLinkDeclaration.ofBytes ecap_data).map'
      .RootComplexLinkDeclaration).mapErr (.RootComplexLinkDeclaration offset)
  | 0x0006 => ((RootComplexInternalLinkControl.RootComplexInternalLinkControl.ofBytes ecap_data).map'
      .RootComplexInternalLinkControl).mapErr (.Data offset)
  | 0x0007 => ((RootComplexEventCollectorEndpointAssociation.RootComplexEventCollectorEndpointAssociation.ofBytes ecap_data).map'
      .RootComplexEventCollectorEndpointAssociation).mapErr (.Data offset)
  | 0x0008 => ((MultifunctionVirtualChannel.MultifunctionVirtualChannel.ofBytes bytes).map'
      .MultifunctionVirtualChannel).mapErr (.MultifunctionVirtualChannel offset)
  | 0x0009 => ((VirtualChannel.VirtualChannel.ofBytes ecap_data).map'
      .VirtualChannelMfvcPresent).mapErr (.Data offset)
  | 0x000a => ((RootComplexRegisterBlockHeader.RootComplexRegisterBlockHeader.ofBytes bytes).map'
      .RootComplexRegisterBlockHeader).mapErr (.Data offset)
  | 0x000b => ((VendorSpecificExtendedCapability.VendorSpecificExtendedCapability.ofBytes ecap_data).map'
      .VendorSpecificExtendedCapability).mapErr (.Data offset)
  | 0x000c => ((ConfigurationAccessCorrelation.ConfigurationAccessCorrelation.ofBytes bytes).map'
      .ConfigurationAccessCorrelation).mapErr (.Data offset)
  | 0x000d => ((AccessControlServices.AccessControlServices.ofBytes ecap_data).map'
      .AccessControlServices).mapErr (.Data offset)
  | 0x000e => ((AlternativeRoutingIdInterpolation.AlternativeRoutingIdInterpretation.ofBytes ecap_data).map'
      .AlternativeRoutingIdInterpretation).mapErr (.Data offset)
  | 0x000f => ((AddressTranslationServices.AddressTranslationServices.ofBytes ecap_data).map'
      .AddressTranslationServices).mapErr (.Data offset)
  | 0x0010 => ((SingleRootIoVirtualization.SingleRootIoVirtualization.ofBytes ecap_data).map'
      .SingleRootIoVirtualization).mapErr (.Data offset)
  | 0x0011 => .ok .MultiRootIoVirtualization
  | 0x0012 => ((Multicast.Multicast.ofBytes bytes).map'
      .Multicast).mapErr (.Data offset)
  | 0x0013 => ((PageRequestInterface.PageRequestInterface.ofBytes ecap_data).map'
      .PageRequestInterface).mapErr (.Data offset)
  | 0x0014 => .ok .ReservedForAmd
  | 0x0015 => ((ResizableBar.ResizableBar.ofBytes bytes).map'
      .ResizableBar).mapErr (.ResizableBar offset)
  | 0x0016 => ((DynamicPowerAllocation.DynamicPowerAllocation.ofBytes bytes).map'
      .DynamicPowerAllocation).mapErr (.DynamicPowerAllocation offset)
  | 0x0017 => ((TphRequester.TphRequester.ofBytes ecap_data).map'
      .TphRequester).mapErr (.Data offset)
  | 0x0018 => ((LatencyToleranceReporting.LatencyToleranceReporting.ofBytes ecap_data).map'
      .LatencyToleranceReporting).mapErr (.Data offset)
  | 0x0019 => ((SecondaryPciExpress.SecondaryPciExpress.ofBytes ecap_data).map'
      .SecondaryPciExpress).mapErr (.Data offset)
  | 0x001a => ((ProtocolMultiplexing.ProtocolMultiplexing.ofBytes bytes).map'
      .ProtocolMultiplexing).mapErr (.ProtocolMultiplexing offset)
  | 0x001b => ((ProcessAddressSpaceId.ProcessAddressSpaceId.ofBytes ecap_data).map'
      .ProcessAddressSpaceId).mapErr (.Data offset)
  | 0x001c => ((LnRequester.LnRequester.ofBytes bytes).map'
      .LnRequester).mapErr (.Data offset)
  | 0x001d => ((DownstreamPortContainment.DownstreamPortContainment.ofBytes ecap_data).map'
      .DownstreamPortContainment).mapErr (.DownstreamPortContainment offset)
  | 0x001e => ((L1PmSubstates.L1PmSubstates.ofBytes ecap_data).map'
      .L1PmSubstates).mapErr (.Data offset)
  | 0x001f => ((PrecisionTimeMeasurement.PrecisionTimeMeasurement.ofBytes ecap_data).map'
      .PrecisionTimeMeasurement).mapErr (.Data offset)
  | 0x0020 => ((PciExpressOverMphy.PciExpressOverMphy.ofBytes bytes).map'
      .PciExpressOverMphy).mapErr (.Data offset)
  | 0x0021 => ((FrsQueuing.FrsQueuing.ofBytes bytes).map'
      .FrsQueuing).mapErr (.Data offset)
  | 0x0022 => ((ReadinessTimeReporting.ReadinessTimeReporting.ofBytes bytes).map'
      .ReadinessTimeReporting).mapErr (.Data offset)
  | 0x0023 => ((DesignatedVendorSpecificExtendedCapability.DesignatedVendorSpecificExtendedCapability.ofBytes bytes).map'
      .DesignatedVendorSpecificExtendedCapability).mapErr (.DesignatedVendorSpecificExtendedCapability offset)
  | 0x0024 => ((ResizableBar.ResizableBar.ofBytes bytes).map'
      .VfResizableBar).mapErr (.VfResizableBar offset)
  | 0x0025 => .ok .DataLinkFeature
  | 0x0026 => .ok .PhysicalLayer16GTps
  | 0x0027 => .ok .LaneMarginingAtTheReceiver
  | 0x0028 => .ok .HierarchyId
  | 0x0029 => .ok .NativePcieEnclosureManagement
  | 0x002a => .ok .PhysicalLayer32GTps
  | 0x002b => .ok .AlternateProtocol
  | 0x002c => .ok .SystemFirmwareIntermediary
  | _ => .ok (.Reserved id)

/-- src/extended_capabilities.rs:261-444; the second component is the value left in
`*next_capability_offset`. `u32::from_le_bytes` of the four bytes is `u32le`. -/
def parseEcap (bytes : Bytes) (next_capability_offset : U16) :
    Res ExtendedCapabilityError ExtendedCapability × U16 :=
  let offset := next_capability_offset
  if offset.toNat < ECS_OFFSET then (.err .Offset, 0)
  else
    let ecs_offset := offset.toNat - ECS_OFFSET
    let ecap_data_offset := ecs_offset + ECH_BYTES
    match getRange bytes ecs_offset ecap_data_offset with
    | some [b0, b1, b2, b3] =>
      let dword := u32le b0 b1 b2 b3
      if dword = 0 then (.err (.EmptyHeader offset), next_capability_offset)
      else
        let h := ExtendedCapabilityHeader.ofU32 dword
        match getFrom bytes ecap_data_offset with
        | some ecap_data =>
          ((decodeKind offset h.extended_capability_id ecap_data bytes).map' fun kind =>
            { kind := kind, version := h.capability_version, offset := offset },
            h.next_capability_offset)
        | none => (.panic, h.next_capability_offset)
    | some _ => (.panic, next_capability_offset)
    | none => (.err (.Header offset), 0)

/-- src/extended_capabilities.rs:184-189 -/
structure ExtendedCapabilities where
  ecs : Bytes
  next_capability_offset : U16
  deriving DecidableEq, Repr

/-- src/extended_capabilities.rs:191-193 -/
def ExtendedCapabilities.new (ecs : Bytes) : ExtendedCapabilities :=
  { ecs := ecs, next_capability_offset := BitVec.ofNat 16 ECS_OFFSET }

/-- src/extended_capabilities.rs:198-206: the item (a `Result`, or a panic) and the state left
behind. -/
def ExtendedCapabilities.next (s : ExtendedCapabilities) :
    Option (Res ExtendedCapabilityError ExtendedCapability) × ExtendedCapabilities :=
  if s.next_capability_offset = 0 then (none, s)
  else
    match parseEcap s.ecs s.next_capability_offset with
    | (.err (.EmptyHeader _), o) => (none, { s with next_capability_offset := o })
    | (v, o) => (some v, { s with next_capability_offset := o })

/-- State after `k` calls of `next`. -/
def ExtendedCapabilities.after (s : ExtendedCapabilities) : Nat → ExtendedCapabilities
  | 0 => s
  | k + 1 => (s.next.2).after k

/-- Result of the call of `next` number `k` (counting from 0). -/
def ExtendedCapabilities.item (s : ExtendedCapabilities) (k : Nat) :
    Option (Res ExtendedCapabilityError ExtendedCapability) :=
  (s.after k).next.1

end Pcics.ExtendedCapabilities
