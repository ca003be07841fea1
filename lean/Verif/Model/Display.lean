import Verif.Model.Capabilities
import Verif.Model.ExtendedCapabilities
/- The texts of errors: `Display` as derived by snafu from the `display` attributes (and, without an
attribute, the name of the variant).  Formatting of core: `{}` of a number is its decimal digits,
`{:0Nx}` its lower case hexadecimal digits, zero padded to at least `N`. -/

namespace Pcics

/-- `{:0width x}` (core::fmt::LowerHex) -/
def fmtHex (width n : Nat) : String :=
  let ds := Nat.toDigits 16 n
  String.ofList (List.replicate (width - ds.length) '0' ++ ds)

/-- `{}` of an unsigned number (core::fmt::Display) -/
def fmtDec (n : Nat) : String := String.ofList (Nat.toDigits 10 n)

/-- src/capabilities.rs:329 -/
def CapabilityDataError.display (e : CapabilityDataError) : String :=
  e.name ++ " (" ++ fmtDec e.size ++ " bytes)"

/-- src/extended_capabilities.rs:176 -/
def ExtendedCapabilityDataError.display (e : ExtendedCapabilityDataError) : String :=
  e.name ++ " (" ++ fmtDec e.size ++ " bytes)"

/-- src/capabilities/pci_express.rs:232-237 -/
def PciExpress.PciExpressError.display : PciExpress.PciExpressError → String
  | .RequiredBytesSlice => "can't read mandatory (0x1a) bytes from slice"
  | .RootBytesSlice => "can't read root bytes from slice"

/-- src/capabilities/hypertransport.rs:29-50 (no attributes: the names of the variants) -/
def Hypertransport.HypertransportError.display : Hypertransport.HypertransportError → String
  | .CapabilityType => "CapabilityType"
  | .SlaveOrPrimaryInterface => "SlaveOrPrimaryInterface"
  | .HostOrSecondaryInterface => "HostOrSecondaryInterface"
  | .Switch => "Switch"
  | .ReservedHost => "ReservedHost"
  | .InterruptDiscoveryAndConfiguration => "InterruptDiscoveryAndConfiguration"
  | .RevisionId => "RevisionId"
  | .UnitIdClumping => "UnitIdClumping"
  | .ExtendedConfigurationSpaceAccess => "ExtendedConfigurationSpaceAccess"
  | .AddressMapping => "AddressMapping"
  | .MsiMapping => "MsiMapping"
  | .DirectRoute => "DirectRoute"
  | .VCSet => "VCSet"
  | .X86Encoding => "X86Encoding"
  | .Gen3 => "Gen3"
  | .FunctionLevelExtension => "FunctionLevelExtension"
  | .PowerManagement => "PowerManagement"
  | .HighNodeCount => "HighNodeCount"

/-- src/capabilities/vendor_specific.rs:53-63 -/
def VendorSpecific.VendorSpecificError.display : VendorSpecific.VendorSpecificError → String
  | .LengthUnreadable => "length byte is unreadable"
  | .Length val => "length should be > 2, not " ++ fmtDec val.toNat
  | .Data size => "unable to get " ++ fmtDec size ++ " bytes data"
  | .Virtio => "Virtio size shold be > 12"

/-- src/capabilities/message_signaled_interrups.rs:22-29 (no attributes) -/
def MessageSignaledInterrups.MessageSignaledInterrupsError.display :
    MessageSignaledInterrups.MessageSignaledInterrupsError → String
  | .MessageControl => "MessageControl"
  | .Size32bit => "Size32bit"
  | .Size64bit => "Size64bit"
  | .Size32bitPerVector => "Size32bitPerVector"
  | .Size64bitPerVector => "Size64bitPerVector"

/-- src/capabilities/pci_x.rs:171-179 -/
def PciX.PciXError.display : PciX.PciXError → String
  | .CommandAndStatus => "command and status registers are unreadable"
  | .EccMode2Only => "Mode 2 ECC registres unreadable"
  | .EccMode1OrMode2 => "Mode 1/2 ECC registres unreadable"

/-- src/capabilities/pci_x.rs:560-568 -/
def PciX.PciXBridgeError.display : PciX.PciXBridgeError → String
  | .Mandatory => "statuses and split trx control registers are unreadable"
  | .BridgeEccMode2Only => "Mode 2 ECC registres unreadable"
  | .BridgeEccMode1OrMode2 => "Mode 1/2 ECC registres unreadable"

/-- src/capabilities/enhanced_allocation.rs:60-66 -/
def EnhancedAllocation.EnhancedAllocationError.display :
    EnhancedAllocation.EnhancedAllocationError → String
  | .NumEntries => "number of entries is unreadable"
  | .Type1SecondDw => "second DW for Type 1 is unreadable"

/-- src/capabilities.rs:278-324 -/
def CapabilityError.display : CapabilityError → String
  | .Pointer => "capabilities pointer should be greater than 0x40"
  | .Header ptr => "[" ++ fmtHex 2 ptr.toNat ++ "] capability header is not available"
  | .Data ptr source => "[" ++ fmtHex 2 ptr.toNat ++ "] " ++ source.display ++ " data read error"
  | .PciExpress ptr source =>
    "[" ++ fmtHex 2 ptr.toNat ++ "] PCI Express error: " ++ source.display
  | .Hypertransport ptr source => "[" ++ fmtHex 2 ptr.toNat ++ "] HyperTransport: " ++ source.display
  | .VendorSpecific ptr source =>
    "[" ++ fmtHex 2 ptr.toNat ++ "] Vendor Specific error: " ++ source.display
  | .MessageSignaledInterrups ptr source =>
    "[" ++ fmtHex 2 ptr.toNat ++ "] MSI error: " ++ source.display
  | .PciX ptr source => "[" ++ fmtHex 2 ptr.toNat ++ "] PCI-X error: " ++ source.display
  | .PciXBridge ptr source => "[" ++ fmtHex 2 ptr.toNat ++ "] PCI-X Bridge error: " ++ source.display
  | .EnhancedAllocation ptr source =>
    "[" ++ fmtHex 2 ptr.toNat ++ "] Enhanced Allocation error: " ++ source.display

/-- src/extended_capabilities/root_complex_link_declaration.rs:102-118 -/
def RootComplexLinkDeclaration.RootComplexLinkDeclarationError.display :
    RootComplexLinkDeclaration.RootComplexLinkDeclarationError → String
  | .ElementSelfDescription => "can't read Element Self Description (4 bytes) from slice"
  | .NumberOfLinkEntries _ => "number of link entries must be > 1"
  | .ReservedSpace _ => "reserved space should be readable"
  | .LinkEntry1 _ => "there must be at least one LinkEntry"

/-- src/extended_capabilities/multifunction_virtual_channel.rs:128-140 -/
def MultifunctionVirtualChannel.MultifunctionVirtualChannelError.display :
    MultifunctionVirtualChannel.MultifunctionVirtualChannelError → String
  | .PortVcData => "capability 1, capability 2, control and status of Port VC are unreadable"
  | .VcArbitrationTableOffset => "VC Arbitration Table offset should be >= 2 * 10h"
  | .VcArbitrationTableData => "VC Arbitration Table data ureadable"
  | .VcArbitrationTableLength expected real =>
    "VC Arbitration Table data too short: expected " ++ fmtDec expected ++ ", real " ++ fmtDec real
  | .FunctionArbitrationTable0 => "at least one Function Arbitration Table should be readable"

/-- src/extended_capabilities/advanced_error_reporting.rs:174-180 -/
def AdvancedErrorReporting.AdvancedErrorReportingError.display :
    AdvancedErrorReporting.AdvancedErrorReportingError → String
  | .Common => "can't read common registres"
  | .TlpPrefixLog => "can't read TLP Prefix Log"

/-- src/extended_capabilities/downstream_port_containment.rs:153-163 -/
def DownstreamPortContainment.DownstreamPortContainmentError.display :
    DownstreamPortContainment.DownstreamPortContainmentError → String
  | .Mandatory => "can't read manadatory registers (8 bytes)"
  | .RpExtensions => "can't read RP Extensions registers (36 bytes)"
  | .RpPioImpspecLog => "can't read RP PIO ImpSpec Log Register (4 bytes)"
  | .RpPioTlpPrefixLog number => "can't read RP PIO TLP Prefix Log Register word#: " ++ fmtDec number

/-- src/extended_capabilities/resizable_bar.rs:85-93 -/
def ResizableBar.ResizableBarError.display : ResizableBar.ResizableBarError → String
  | .FirstEntry => "should have at least one entry"
  | .NumberOfResizableBars _ => "should have 1..=6 number of entries"
  | .ShortData => "entries data too short"

/-- src/extended_capabilities/dynamic_power_allocation.rs:64-70 -/
def DynamicPowerAllocation.DynamicPowerAllocationError.display :
    DynamicPowerAllocation.DynamicPowerAllocationError → String
  | .Mandatory => "capability, latency indicator, status and control fields are unreadable"
  | .DpaAllocationArray expected found =>
    "number of entries must be equal to the Substate_Max plus one (expected: " ++ fmtDec expected ++
      ", found: " ++ fmtDec found ++ ")"

/-- src/extended_capabilities/protocol_multiplexing.rs:93-101 -/
def ProtocolMultiplexing.ProtocolMultiplexingError.display :
    ProtocolMultiplexing.ProtocolMultiplexingError → String
  | .Mandatory => "capability, control and status fields are unreadable"
  | .PmuxProtocolArray expected found =>
    "ureadable bytes for PMUX Protocol Array (expected: " ++ fmtDec expected ++ ", found: " ++
      fmtDec found ++ ")"

/-- src/extended_capabilities/designated_vendor_specific_extended_capability/compute_express_link.rs:51-55 -/
def ComputeExpressLink.ComputeExpressLinkError.display :
    ComputeExpressLink.ComputeExpressLinkError → String
  | .PcieDvsecForCxlDevice => "PCIe DVSEC for CXL Device"

/-- src/extended_capabilities/designated_vendor_specific_extended_capability.rs:47-70 -/
def DesignatedVendorSpecificExtendedCapability.DesignatedVendorSpecificExtendedCapabilityError.display :
    DesignatedVendorSpecificExtendedCapability.DesignatedVendorSpecificExtendedCapabilityError → String
  | .Mandatory => "mandatory fields are unreadable"
  | .VendorSpecificRegisters dvsec_vendor_id dvsec_revision dvsec_length dvsec_id real =>
    "Vendor-specific registers (VID: " ++ fmtHex 4 dvsec_vendor_id.toNat ++ ", rev: " ++
      fmtHex 2 dvsec_revision.toNat ++ ", ID: " ++ fmtHex 4 dvsec_id.toNat ++
      ") are unreadable. Length expected: " ++ fmtDec dvsec_length.toNat ++ ", real: " ++ fmtDec real
  | .ComputeExpressLink source => "Compute Express Link error: " ++ source.display

/-- src/extended_capabilities.rs:111-172, without the variant `SingleRootIoVirtualization`, which no
code constructs -/
def ExtendedCapabilities.ExtendedCapabilityError.display :
    ExtendedCapabilities.ExtendedCapabilityError → String
  | .Offset => "extended capability offset should be greater than 0xFF"
  | .Header offset =>
    "[" ++ fmtHex 3 offset.toNat ++ "] extended capability header shorter than u32"
  | .EmptyHeader offset => "[" ++ fmtHex 3 offset.toNat ++ "] extended capability has empty header"
  | .Data offset source =>
    "[" ++ fmtHex 3 offset.toNat ++ "] " ++ source.display ++ " data read error"
  | .RootComplexLinkDeclaration offset source =>
    "[" ++ fmtHex 3 offset.toNat ++ "] Root Complex Link Declaration error: " ++ source.display
  | .MultifunctionVirtualChannel offset source =>
    "[" ++ fmtHex 3 offset.toNat ++ "] Multi-Function Virtual Channel error: " ++ source.display
  | .AdvancedErrorReporting offset source =>
    "[" ++ fmtHex 3 offset.toNat ++ "] Advanced Error Reporting error: " ++ source.display
  | .DownstreamPortContainment offset source =>
    "[" ++ fmtHex 3 offset.toNat ++ "] Downstream Port Containment error: " ++ source.display
  | .ResizableBar offset source =>
    "[" ++ fmtHex 3 offset.toNat ++ "] Resizable BAR error: " ++ source.display
  | .DynamicPowerAllocation offset source =>
    "[" ++ fmtHex 3 offset.toNat ++ "] Dynamic Power Allocation error: " ++ source.display
  | .ProtocolMultiplexing offset source =>
    "[" ++ fmtHex 3 offset.toNat ++ "] Protocol Multiplexing error: " ++ source.display
  | .DesignatedVendorSpecificExtendedCapability offset source =>
    "[" ++ fmtHex 3 offset.toNat ++
      "] Designated Vendor-Specific Extended Capabilities error: " ++ source.display
  | .VfResizableBar offset source =>
    "[" ++ fmtHex 3 offset.toNat ++ "] VF Resizable BAR error: " ++ source.display

end Pcics
