import Verif.Base
import Verif.Lemmas.Bar
import Verif.Lemmas.BarCollect
import Verif.Lemmas.BarEquality
import Verif.Lemmas.Basic
import Verif.Lemmas.Bv
import Verif.Lemmas.Calls
import Verif.Lemmas.Capabilities
import Verif.Lemmas.ClassCode
import Verif.Lemmas.Display
import Verif.Lemmas.Equality
import Verif.Lemmas.ExtendedCapabilities
import Verif.Lemmas.ExtendedFrame
import Verif.Lemmas.Float
import Verif.Lemmas.Frame
import Verif.Lemmas.Fused
import Verif.Lemmas.Header
import Verif.Lemmas.HeaderEquality
import Verif.Lemmas.Iter
import Verif.Lemmas.Packed
import Verif.Lemmas.Reads
import Verif.Lemmas.Step
import Verif.Lemmas.Tactics
import Verif.Lemmas.Windows
import Verif.Model.Accessors
import Verif.Model.Cap.AcceleratedGraphicsPort
import Verif.Model.Cap.EnhancedAllocation
import Verif.Model.Cap.FlatteningPortalBridge
import Verif.Model.Cap.Hypertransport
import Verif.Model.Cap.MessageSignaledInterrups
import Verif.Model.Cap.MsiX
import Verif.Model.Cap.PciExpress
import Verif.Model.Cap.PciX
import Verif.Model.Cap.PowerManagementInterface
import Verif.Model.Cap.Small
import Verif.Model.Cap.VendorSpecific
import Verif.Model.Capabilities
import Verif.Model.ClassCode
import Verif.Model.Common
import Verif.Model.Defaults
import Verif.Model.Display
import Verif.Model.Dump
import Verif.Model.Equality
import Verif.Model.Ext.AccessControlServices
import Verif.Model.Ext.AddressTranslationServices
import Verif.Model.Ext.AdvancedErrorReporting
import Verif.Model.Ext.AlternativeRoutingIdInterpolation
import Verif.Model.Ext.ComputeExpressLink
import Verif.Model.Ext.ConfigurationAccessCorrelation
import Verif.Model.Ext.DesignatedVendorSpecificExtendedCapability
import Verif.Model.Ext.DeviceSerialNumber
import Verif.Model.Ext.DownstreamPortContainment
import Verif.Model.Ext.DynamicPowerAllocation
import Verif.Model.Ext.FrsQueuing
import Verif.Model.Ext.L1PmSubstates
import Verif.Model.Ext.LatencyToleranceReporting
import Verif.Model.Ext.LnRequester
import Verif.Model.Ext.Multicast
import Verif.Model.Ext.MultifunctionVirtualChannel
import Verif.Model.Ext.PageRequestInterface
import Verif.Model.Ext.PciExpressOverMphy
import Verif.Model.Ext.PowerBudgeting
import Verif.Model.Ext.PrecisionTimeMeasurement
import Verif.Model.Ext.ProcessAddressSpaceId
import Verif.Model.Ext.ProtocolMultiplexing
import Verif.Model.Ext.ReadinessTimeReporting
import Verif.Model.Ext.ResizableBar
import Verif.Model.Ext.RootComplexEventCollectorEndpointAssociation
import Verif.Model.Ext.RootComplexInternalLinkControl
import Verif.Model.Ext.RootComplexLinkDeclaration
import Verif.Model.Ext.RootComplexRegisterBlockHeader
import Verif.Model.Ext.SecondaryPciExpress
import Verif.Model.Ext.SingleRootIoVirtualization
import Verif.Model.Ext.TphRequester
import Verif.Model.Ext.VendorSpecificExtendedCapability
import Verif.Model.Ext.VirtualChannel
import Verif.Model.ExtendedCapabilities
import Verif.Model.Float
import Verif.Model.Header
import Verif.Model.Iter
import Verif.Model.Order
import Verif.Model.Width
import Verif.Props.Accessors
import Verif.Props.AnyEntrySize
import Verif.Props.Bar
import Verif.Props.BarCollect
import Verif.Props.Calls
import Verif.Props.Cap.AcceleratedGraphicsPort
import Verif.Props.Cap.EnhancedAllocation
import Verif.Props.Cap.FlatteningPortalBridge
import Verif.Props.Cap.Hypertransport
import Verif.Props.Cap.MessageSignaledInterrups
import Verif.Props.Cap.MsiX
import Verif.Props.Cap.PciExpress
import Verif.Props.Cap.PciX
import Verif.Props.Cap.PowerManagementInterface
import Verif.Props.Cap.Small
import Verif.Props.Cap.VendorSpecific
import Verif.Props.Capabilities
import Verif.Props.CapabilityEquality
import Verif.Props.ClassCode
import Verif.Props.Defaults
import Verif.Props.Display
import Verif.Props.Dump
import Verif.Props.Encode
import Verif.Props.Endless
import Verif.Props.Equality
import Verif.Props.Errors
import Verif.Props.Ext.AccessControlServices
import Verif.Props.Ext.AddressTranslationServices
import Verif.Props.Ext.AdvancedErrorReporting
import Verif.Props.Ext.AlternativeRoutingIdInterpolation
import Verif.Props.Ext.ComputeExpressLink
import Verif.Props.Ext.ConfigurationAccessCorrelation
import Verif.Props.Ext.DesignatedVendorSpecificExtendedCapability
import Verif.Props.Ext.DeviceSerialNumber
import Verif.Props.Ext.DownstreamPortContainment
import Verif.Props.Ext.DynamicPowerAllocation
import Verif.Props.Ext.FrsQueuing
import Verif.Props.Ext.L1PmSubstates
import Verif.Props.Ext.LatencyToleranceReporting
import Verif.Props.Ext.LnRequester
import Verif.Props.Ext.Multicast
import Verif.Props.Ext.MultifunctionVirtualChannel
import Verif.Props.Ext.PageRequestInterface
import Verif.Props.Ext.PciExpressOverMphy
import Verif.Props.Ext.PowerBudgeting
import Verif.Props.Ext.PrecisionTimeMeasurement
import Verif.Props.Ext.ProcessAddressSpaceId
import Verif.Props.Ext.ProtocolMultiplexing
import Verif.Props.Ext.ReadinessTimeReporting
import Verif.Props.Ext.ResizableBar
import Verif.Props.Ext.RootComplexEventCollectorEndpointAssociation
import Verif.Props.Ext.RootComplexInternalLinkControl
import Verif.Props.Ext.RootComplexLinkDeclaration
import Verif.Props.Ext.RootComplexRegisterBlockHeader
import Verif.Props.Ext.SecondaryPciExpress
import Verif.Props.Ext.SingleRootIoVirtualization
import Verif.Props.Ext.TphRequester
import Verif.Props.Ext.VendorSpecificExtendedCapability
import Verif.Props.Ext.VirtualChannel
import Verif.Props.ExtendedCapabilities
import Verif.Props.ExtendedEndless
import Verif.Props.ExtendedEquality
import Verif.Props.ExtendedErrors
import Verif.Props.ExtendedFrame
import Verif.Props.ExtendedMoreBytes
import Verif.Props.ExtendedTexts
import Verif.Props.Float
import Verif.Props.Frame
import Verif.Props.Header
import Verif.Props.HeaderEquality
import Verif.Props.Inspect
import Verif.Props.Iter
import Verif.Props.Limits
import Verif.Props.MoreBytes
import Verif.Props.Order
import Verif.Props.RegisterAccessors
import Verif.Props.Texts
import Verif.Props.Width
import Verif.Props.Windows
import Verif.Spec
import Verif.Spec.AnyPacked
import Verif.Spec.Bar
import Verif.Spec.Cap.AcceleratedGraphicsPort
import Verif.Spec.Cap.EnhancedAllocation
import Verif.Spec.Cap.FlatteningPortalBridge
import Verif.Spec.Cap.Hypertransport
import Verif.Spec.Cap.MessageSignaledInterrups
import Verif.Spec.Cap.MsiX
import Verif.Spec.Cap.PciExpress
import Verif.Spec.Cap.PciX
import Verif.Spec.Cap.PowerManagementInterface
import Verif.Spec.Cap.Small
import Verif.Spec.Cap.VendorSpecific
import Verif.Spec.Capabilities
import Verif.Spec.ClassCode
import Verif.Spec.Display
import Verif.Spec.Dump
import Verif.Spec.Errors
import Verif.Spec.Ext.AccessControlServices
import Verif.Spec.Ext.AddressTranslationServices
import Verif.Spec.Ext.AdvancedErrorReporting
import Verif.Spec.Ext.AlternativeRoutingIdInterpolation
import Verif.Spec.Ext.ComputeExpressLink
import Verif.Spec.Ext.ConfigurationAccessCorrelation
import Verif.Spec.Ext.DesignatedVendorSpecificExtendedCapability
import Verif.Spec.Ext.DeviceSerialNumber
import Verif.Spec.Ext.DownstreamPortContainment
import Verif.Spec.Ext.DynamicPowerAllocation
import Verif.Spec.Ext.FrsQueuing
import Verif.Spec.Ext.L1PmSubstates
import Verif.Spec.Ext.LatencyToleranceReporting
import Verif.Spec.Ext.LnRequester
import Verif.Spec.Ext.Multicast
import Verif.Spec.Ext.MultifunctionVirtualChannel
import Verif.Spec.Ext.PageRequestInterface
import Verif.Spec.Ext.PciExpressOverMphy
import Verif.Spec.Ext.PowerBudgeting
import Verif.Spec.Ext.PrecisionTimeMeasurement
import Verif.Spec.Ext.ProcessAddressSpaceId
import Verif.Spec.Ext.ProtocolMultiplexing
import Verif.Spec.Ext.ReadinessTimeReporting
import Verif.Spec.Ext.ResizableBar
import Verif.Spec.Ext.RootComplexEventCollectorEndpointAssociation
import Verif.Spec.Ext.RootComplexInternalLinkControl
import Verif.Spec.Ext.RootComplexLinkDeclaration
import Verif.Spec.Ext.RootComplexRegisterBlockHeader
import Verif.Spec.Ext.SecondaryPciExpress
import Verif.Spec.Ext.SingleRootIoVirtualization
import Verif.Spec.Ext.TphRequester
import Verif.Spec.Ext.VendorSpecificExtendedCapability
import Verif.Spec.Ext.VirtualChannel
import Verif.Spec.ExtendedCapabilities
import Verif.Spec.ExtendedFrame
import Verif.Spec.Float
import Verif.Spec.Frame
import Verif.Spec.Frequency
import Verif.Spec.Header
import Verif.Spec.HeaderEquality
import Verif.Spec.Iter
import Verif.Spec.Packed
import Verif.Spec.Texts
import Verif.Spec.Windows
import Verif.Tests.Capabilities
import Verif.Tests.Dumps
import Verif.Tests.ExtendedCapabilities
import Verif.Tests.Header
import Verif.Tests.Manual
