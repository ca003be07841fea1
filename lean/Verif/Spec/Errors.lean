import Verif.Model.Capabilities
import Verif.Model.ExtendedCapabilities
/- Vocabulary for the errors of both capability walks. -/

namespace Pcics

/-- The pointer an error names. -/
def CapabilityError.ptr : CapabilityError → Option U8
  | .Pointer => none
  | .Header p => some p
  | .Data p _ => some p
  | .PciExpress p _ => some p
  | .Hypertransport p _ => some p
  | .VendorSpecific p _ => some p
  | .MessageSignaledInterrups p _ => some p
  | .PciX p _ => some p
  | .PciXBridge p _ => some p
  | .EnhancedAllocation p _ => some p

/-- The offset an error names. -/
def ExtendedCapabilities.ExtendedCapabilityError.namedOffset :
    ExtendedCapabilities.ExtendedCapabilityError → Option U16
  | .Offset => none
  | .Header o => some o
  | .EmptyHeader o => some o
  | .Data o _ => some o
  | .RootComplexLinkDeclaration o _ => some o
  | .MultifunctionVirtualChannel o _ => some o
  | .AdvancedErrorReporting o _ => some o
  | .DownstreamPortContainment o _ => some o
  | .ResizableBar o _ => some o
  | .DynamicPowerAllocation o _ => some o
  | .ProtocolMultiplexing o _ => some o
  | .DesignatedVendorSpecificExtendedCapability o _ => some o
  | .VfResizableBar o _ => some o

/-- The outcome is a value. -/
def Res.isOk {ε α : Type} : Res ε α → Bool
  | .ok _ => true
  | _ => false

end Pcics
