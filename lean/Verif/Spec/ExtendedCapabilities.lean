import Verif.Model.ExtendedCapabilities
import Verif.Spec
import Verif.Spec.Ext.AccessControlServices
import Verif.Spec.Ext.AddressTranslationServices
import Verif.Spec.Ext.AdvancedErrorReporting
import Verif.Spec.Ext.AlternativeRoutingIdInterpolation
import Verif.Spec.Ext.ConfigurationAccessCorrelation
import Verif.Spec.Ext.DesignatedVendorSpecificExtendedCapability
import Verif.Spec.Ext.DeviceSerialNumber
import Verif.Spec.Ext.DownstreamPortContainment
import Verif.Spec.Ext.DynamicPowerAllocation
import Verif.Spec.Ext.FrsQueuing
import Verif.Spec.Ext.L1PmSubstates
import Verif.Spec.Ext.LatencyToleranceReporting
import Verif.Spec.Ext.LnRequester
import Verif.Spec.Ext.Multicast
import Verif.Spec.Ext.MultifunctionVirtualChannel
import Verif.Spec.Ext.PageRequestInterface
import Verif.Spec.Ext.PciExpressOverMphy
import Verif.Spec.Ext.PowerBudgeting
import Verif.Spec.Ext.PrecisionTimeMeasurement
import Verif.Spec.Ext.ProcessAddressSpaceId
import Verif.Spec.Ext.ProtocolMultiplexing
import Verif.Spec.Ext.ReadinessTimeReporting
import Verif.Spec.Ext.ResizableBar
import Verif.Spec.Ext.RootComplexEventCollectorEndpointAssociation
import Verif.Spec.Ext.RootComplexInternalLinkControl
import Verif.Spec.Ext.RootComplexLinkDeclaration
import Verif.Spec.Ext.RootComplexRegisterBlockHeader
import Verif.Spec.Ext.SecondaryPciExpress
import Verif.Spec.Ext.SingleRootIoVirtualization
import Verif.Spec.Ext.TphRequester
import Verif.Spec.Ext.VendorSpecificExtendedCapability
import Verif.Spec.Ext.VirtualChannel
/- Specification of src/extended_capabilities.rs: the linked list of extended capabilities in the
extended configuration space, which starts at address 0x100. -/

namespace Pcics.ExtendedCapabilities
open Spec

/-- A four-byte extended capability header is available at configuration address `o`. -/
def fits (d : Bytes) (o : U16) : Prop := 0x100 ≤ o.toNat ∧ o.toNat - 0x100 + 4 ≤ d.length

instance (d : Bytes) (o : U16) : Decidable (fits d o) := by unfold fits; infer_instance

/-- The header of the extended capability at address `o`. -/
def header (d : Bytes) (o : U16) : U32 := rd32 d (o.toNat - 0x100)

/-- Extended capability id: bits 15:0 of the header. -/
def capId (d : Bytes) (o : U16) : U16 := fld (header d o) 0 16

/-- Capability version: bits 19:16 of the header. -/
def capVersion (d : Bytes) (o : U16) : U8 := fld (header d o) 16 4

/-- Next capability offset: bits 31:20 of the header. -/
def capNext (d : Bytes) (o : U16) : U16 := fld (header d o) 20 12

/-- There is an extended capability at `o`: its header is available and not zero. -/
def live (d : Bytes) (o : U16) : Prop := fits d o ∧ header d o ≠ 0

instance (d : Bytes) (o : U16) : Decidable (live d o) := by unfold live; infer_instance

/-- `Chain d o os q`: starting from offset `o` and following the next offsets one visits the extended
capabilities at `os`, in this order, and is then left with the offset `q`. -/
inductive Chain (d : Bytes) : U16 → List U16 → U16 → Prop
  | stop (o : U16) : Chain d o [] o
  | step {o q : U16} {os : List U16} (here : live d o) (rest : Chain d (capNext d o) os q) :
      Chain d o (o :: os) q

section
open AdvancedErrorReporting

/-- What is decoded from the registers `d` of `AdvancedErrorReporting`; the prefix log at 92 is the
deviation of C42. -/
def decodedAdvancedErrorReporting (d : Bytes) :
    Res AdvancedErrorReportingError AdvancedErrorReporting.AdvancedErrorReporting :=
  if d.length < 40 then .err .Common
  else if flag (rd32 d 20) 11 then
    if d.length < 108 then .err .TlpPrefixLog else .ok (.spec d (some ⟨rd32s d 92 4⟩))
  else .ok (.spec d none)

end

section
open RootComplexLinkDeclaration

/-- What the registers `d` of `RootComplexLinkDeclaration` mean. -/
def decodedRootComplexLinkDeclaration (d : Bytes) :
    Res RootComplexLinkDeclarationError RootComplexLinkDeclaration.RootComplexLinkDeclaration :=
  if d.length < 4 then .err .ElementSelfDescription
  else if announced d = 0 then .err (.NumberOfLinkEntries (.spec (rd32 d 0)))
  else if d.length < 12 then .err (.ReservedSpace (.spec (rd32 d 0)))
  else if d.length < 28 then .err (.LinkEntry1 (.spec (rd32 d 0)))
  else .ok {
    element_self_description := .spec (rd32 d 0)
    link_entries := {
      chunks := (d.drop 12).take (16 * announced d)
      state := .spec (announced d) (d.length - 12) } }

end

section
open MultifunctionVirtualChannel

/-- What the registers `d` of `MultifunctionVirtualChannel` mean. -/
def decodedMultifunctionVirtualChannel (d : Bytes) :
    Res MultifunctionVirtualChannelError MultifunctionVirtualChannel.MultifunctionVirtualChannel :=
  if d.length < 16 then .err .PortVcData else (vcTable d).map' (.spec d)

end

section
open ResizableBar

/-- What the registers `d` of `ResizableBar` mean. -/
def decodedResizableBar (d : Bytes) :
    Res ResizableBarError ResizableBar.ResizableBar :=
  if d.length < 12 then .err .FirstEntry
  else if numBars d = 0 ∨ 6 < numBars d then .err (.NumberOfResizableBars (numBars d))
  else if d.length < 4 + 8 * numBars d then .err .ShortData
  else .ok ⟨(d.drop 4).take (8 * numBars d)⟩

end

section
open DynamicPowerAllocation

/-- What the registers `d` of `DynamicPowerAllocation` mean. -/
def decodedDynamicPowerAllocation (d : Bytes) :
    Res DynamicPowerAllocationError DynamicPowerAllocation.DynamicPowerAllocation :=
  if d.length < 16 then .err .Mandatory
  else if d.length < 16 + substates d then
    .err (.DpaAllocationArray (substates d - 1) (d.length - 16))
  else .ok (DynamicPowerAllocation.spec d)

end

section
open ProtocolMultiplexing

/-- What the registers `d` of `ProtocolMultiplexing` mean. -/
def decodedProtocolMultiplexing (d : Bytes) :
    Res ProtocolMultiplexingError ProtocolMultiplexing.ProtocolMultiplexing :=
  if d.length < 16 then .err .Mandatory
  else if d.length < 16 + arrayBytes d then
    .err (.PmuxProtocolArray (arrayBytes d) (d.length - 16))
  else .ok (ProtocolMultiplexing.spec d)

end

section
open DownstreamPortContainment

/-- What the registers `d` of `DownstreamPortContainment` mean. -/
def decodedDownstreamPortContainment (d : Bytes) :
    Res DownstreamPortContainmentError DownstreamPortContainment.DownstreamPortContainment :=
  if d.length < 8 then .err .Mandatory
  else if flag (rd16 d 0) 5 = false then .ok (.spec d none)
  else if d.length < 44 then .err .RpExtensions
  else if 5 ≤ logSize d ∧ d.length < 48 then .err .RpPioImpspecLog
  else if 5 < logSize d ∧ d.length < 48 + 4 * prefixDwords d then
    .err (.RpPioTlpPrefixLog ((d.length - 48) / 4))
  else .ok (.spec d (some (.spec d)))

end

section
open DesignatedVendorSpecificExtendedCapability

/-- What the registers `d` of `DesignatedVendorSpecificExtendedCapability` mean. -/
def decodedDesignatedVendorSpecificExtendedCapability (d : Bytes) :
    Res DesignatedVendorSpecificExtendedCapabilityError
      DesignatedVendorSpecificExtendedCapability.DesignatedVendorSpecificExtendedCapability :=
  if d.length < 10 then .err .Mandatory
  else if (fld (rd32 d 4) 20 12 : U16).toNat < 10 ∨
      d.length < (fld (rd32 d 4) 20 12 : U16).toNat then
    .err (.VendorSpecificRegisters (fld (rd32 d 4) 0 16) (fld (rd32 d 4) 16 4)
      (fld (rd32 d 4) 20 12) (rd16 d 8) d.length)
  else
    match DvsecType.spec d with
    | .ok t => .ok (.spec d t)
    | .err e => .err e
    | .panic => .panic

end

/-- Registers of `need` bytes decoded as `k`, or a data error naming the structure and its `size`. -/
def plain (o : U16) (d : Bytes) (name : String) (need size : Nat) (k : ExtendedCapabilityKind) :
    Res ExtendedCapabilityError ExtendedCapabilityKind :=
  if need ≤ d.length then .ok k else .err (.Data o ⟨name, size⟩)

/-- The decoded registers as a kind. -/
def wrap {ε α : Type} (k : α → ExtendedCapabilityKind) (e : ε → ExtendedCapabilityError) :
    Res ε α → Res ExtendedCapabilityError ExtendedCapabilityKind
  | .ok x => .ok (k x)
  | .err x => .err (e x)
  | .panic => .panic

/-- What extended capability id `id` means for the structure `s`, as one table (the assignment of ids
is the one of the code; registers known to deviate are those of C42, C47 and C60, ids 0x2d to 0x34 are
assigned by the standard but reserved here); `s` starts with the extended capability header; `d` are the registers after the header. -/
def kindSpec (o id : U16) (s d : Bytes) : Res ExtendedCapabilityError ExtendedCapabilityKind :=
  pick id [
    (0x0000, .ok .Null),
    (0x0001, wrap .AdvancedErrorReporting (.AdvancedErrorReporting o)
      (decodedAdvancedErrorReporting d)),
    (0x0002, plain o d "Virtual Channel" 12 8
      (.VirtualChannel (.spec d))),
    (0x0003, plain o d "Device Serial Number" 8 8
      (.DeviceSerialNumber (.spec d))),
    (0x0004, plain o d "Power Budgeting" 12 12
      (.PowerBudgeting (.spec .read d))),
    (0x0005, wrap .RootComplexLinkDeclaration (.RootComplexLinkDeclaration o)
      (decodedRootComplexLinkDeclaration d)),
    (0x0006, plain o d "Root Complex Internal Link Control" 8 8
      (.RootComplexInternalLinkControl (.spec d))),
    (0x0007, plain o d "Root Complex Event Collector Endpoint Association" 4 4
      (.RootComplexEventCollectorEndpointAssociation (.spec d))),
    (0x0008, wrap .MultifunctionVirtualChannel (.MultifunctionVirtualChannel o)
      (decodedMultifunctionVirtualChannel s)),
    (0x0009, plain o d "Virtual Channel" 12 8
      (.VirtualChannelMfvcPresent (.spec d))),
    (0x000a, plain o s "RCRB Header" 20 20
      (.RootComplexRegisterBlockHeader (.spec s))),
    (0x000b, plain o d "Vendor-Specific Extended Capability" 4 4
      (.VendorSpecificExtendedCapability { header := .spec d, registers := .spec d })),
    (0x000c, plain o s "Configuration Access Correlation" 8 8
      (.ConfigurationAccessCorrelation (.spec s))),
    (0x000d, plain o d "Access Control Services" 4 4
      (.AccessControlServices {
        data := d.drop 4, acs_capability := .read (rd16 d 0), acs_control := .spec (rd16 d 2) })),
    (0x000e, plain o d "Alternative Routing-ID Interpretation" 4 4
      (.AlternativeRoutingIdInterpretation (.spec d))),
    (0x000f, plain o d "Address Translation Services" 4 4
      (.AddressTranslationServices (.spec d))),
    (0x0010, plain o d "Single Root I/O Virtualization" 60 60
      (.SingleRootIoVirtualization (.spec d))),
    (0x0011, .ok .MultiRootIoVirtualization),
    (0x0012, plain o s "Multicast" 40 0x30
      (.Multicast (.spec s))),
    (0x0013, plain o d "Page Request Interface" 12 12
      (.PageRequestInterface (.spec d))),
    (0x0014, .ok .ReservedForAmd),
    (0x0015, wrap .ResizableBar (.ResizableBar o)
      (decodedResizableBar s)),
    (0x0016, wrap .DynamicPowerAllocation (.DynamicPowerAllocation o)
      (decodedDynamicPowerAllocation s)),
    (0x0017, plain o d "TPH Requester" 8 8
      (.TphRequester (.spec d))),
    (0x0018, plain o d "Latency Tolerance Reporting" 4 8
      (.LatencyToleranceReporting (.spec d))),
    (0x0019, plain o d "Secondary PCI Express" 8 8
      (.SecondaryPciExpress (.spec d))),
    (0x001a, wrap .ProtocolMultiplexing (.ProtocolMultiplexing o)
      (decodedProtocolMultiplexing s)),
    (0x001b, plain o d "Process Address Space ID" 4 4
      (.ProcessAddressSpaceId (.spec d))),
    (0x001c, plain o s "LN Requester" 8 8
      (.LnRequester (.spec s))),
    (0x001d, wrap .DownstreamPortContainment (.DownstreamPortContainment o)
      (decodedDownstreamPortContainment d)),
    (0x001e, plain o d "L1 PM Substates" 12 12
      (.L1PmSubstates (.spec d))),
    (0x001f, plain o d "Precision Time Measurement" 8 8
      (.PrecisionTimeMeasurement (.spec d))),
    (0x0020, plain o s "M-PCIe" 28 28
      (.PciExpressOverMphy (.spec s))),
    (0x0021, plain o s "FRS Queuing" 16 16
      (.FrsQueuing (.spec s))),
    (0x0022, plain o s "Readiness Time Reporting" 12 12
      (.ReadinessTimeReporting (.spec s))),
    (0x0023, wrap .DesignatedVendorSpecificExtendedCapability
      (.DesignatedVendorSpecificExtendedCapability o)
      (decodedDesignatedVendorSpecificExtendedCapability s)),
    (0x0024, wrap .VfResizableBar (.VfResizableBar o)
      (decodedResizableBar s)),
    (0x0025, .ok .DataLinkFeature),
    (0x0026, .ok .PhysicalLayer16GTps),
    (0x0027, .ok .LaneMarginingAtTheReceiver),
    (0x0028, .ok .HierarchyId),
    (0x0029, .ok .NativePcieEnclosureManagement),
    (0x002a, .ok .PhysicalLayer32GTps),
    (0x002b, .ok .AlternateProtocol),
    (0x002c, .ok .SystemFirmwareIntermediary)] (.ok (.Reserved id))

/-- The ids whose structure the code takes from the start of the extended configuration space
instead of from the offset of the capability. -/
def fromStart : List U16 :=
  [0x0008, 0x000a, 0x000c, 0x0012, 0x0015, 0x0016, 0x001a, 0x001c, 0x0020, 0x0021, 0x0022, 0x0023,
    0x0024]

/-- The structure of the extended capability at `o`: from its header to the end of the space. -/
def structureAt (d : Bytes) (o : U16) : Bytes := d.drop (o.toNat - 0x100)

/-- An extended capability with kind `k` found at `o`. -/
def report (d : Bytes) (o : U16) (k : Res ExtendedCapabilityError ExtendedCapabilityKind) :
    Res ExtendedCapabilityError ExtendedCapability :=
  match k with
  | .ok k => .ok { kind := k, version := capVersion d o, offset := o }
  | .err e => .err e
  | .panic => .panic

/-- What should be reported for the extended capability at `o`: its own structure decoded. -/
def itemSpec (d : Bytes) (o : U16) : Res ExtendedCapabilityError ExtendedCapability :=
  report d o (kindSpec o (capId d o) (structureAt d o) ((structureAt d o).drop 4))

/-- What the code reports for the extended capability at `o`. -/
def itemAt (d : Bytes) (o : U16) : Res ExtendedCapabilityError ExtendedCapability :=
  report d o (kindSpec o (capId d o) d ((structureAt d o).drop 4))

/-- The walk yields finitely many items: from some call on, only `None`. -/
def ExtendedCapabilities.Terminates (s : ExtendedCapabilities) : Prop :=
  ∃ n, ∀ k, n ≤ k → s.item k = none

end Pcics.ExtendedCapabilities
