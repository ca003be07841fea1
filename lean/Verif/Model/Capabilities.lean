import Verif.Model.Header
import Verif.Model.Cap.Small
import Verif.Model.Cap.PowerManagementInterface
import Verif.Model.Cap.AcceleratedGraphicsPort
import Verif.Model.Cap.MessageSignaledInterrups
import Verif.Model.Cap.PciX
import Verif.Model.Cap.Hypertransport
import Verif.Model.Cap.VendorSpecific
import Verif.Model.Cap.PciExpress
import Verif.Model.Cap.MsiX
import Verif.Model.Cap.EnhancedAllocation
import Verif.Model.Cap.FlatteningPortalBridge
/- src/capabilities.rs: the capability list iterator and the dispatch on the capability id. -/

namespace Pcics

/-- src/lib.rs:21 -/
def DDR_OFFSET : Nat := 0x40

/-- src/capabilities.rs:279-324 -/
inductive CapabilityError where
  | Pointer
  | Header (ptr : U8)
  | Data (ptr : U8) (source : CapabilityDataError)
  | PciExpress (ptr : U8) (source : PciExpress.PciExpressError)
  | Hypertransport (ptr : U8) (source : Hypertransport.HypertransportError)
  | VendorSpecific (ptr : U8) (source : VendorSpecific.VendorSpecificError)
  | MessageSignaledInterrups (ptr : U8)
      (source : MessageSignaledInterrups.MessageSignaledInterrupsError)
  | PciX (ptr : U8) (source : PciX.PciXError)
  | PciXBridge (ptr : U8) (source : PciX.PciXBridgeError)
  | EnhancedAllocation (ptr : U8) (source : EnhancedAllocation.EnhancedAllocationError)
  deriving DecidableEq, Repr

/-- src/capabilities.rs:475-505; the five marker types without content (CompactPCI hot swap, ...)
are constructors without argument. -/
inductive CapabilityKind where
  | NullCapability
  | PowerManagementInterface (v : PowerManagementInterface.PowerManagementInterface)
  | AcceleratedGraphicsPort (v : AcceleratedGraphicsPort.AcceleratedGraphicsPort)
  | VitalProductData (v : VitalProductData)
  | SlotIdentification (v : SlotIdentification)
  | MessageSignaledInterrups (v : MessageSignaledInterrups.MessageSignaledInterrups)
  | CompactPciHotSwap
  | PciX (v : PciX.PciX)
  | PciXBridge (v : PciX.PciXBridge)
  | Hypertransport (v : Hypertransport.Hypertransport)
  | VendorSpecific (v : VendorSpecific.VendorSpecific)
  | DebugPort (v : DebugPort)
  | CompactPciResourceControl
  | PciHotPlug
  | BridgeSubsystemVendorId (v : BridgeSubsystemVendorId)
  | Agp8x
  | SecureDevice
  | PciExpress (v : PciExpress.PciExpress)
  | MsiX (v : MsiX.MsiX)
  | Sata (v : Sata)
  | AdvancedFeatures (v : AdvancedFeatures)
  | EnhancedAllocation (v : EnhancedAllocation.EnhancedAllocation)
  | FlatteningPortalBridge (v : FlatteningPortalBridge.FlatteningPortalBridge)
  | Reserved (id : U8)
  deriving DecidableEq, Repr

/-- src/capabilities.rs:463-467 -/
structure Capability where
  pointer : U8
  kind : CapabilityKind
  deriving DecidableEq, Repr

/-- `matches!(header.header_type, HeaderType::Bridge(_))` -/
def Header.Header.isBridge (h : Header.Header) : Bool :=
  match h.header_type with
  | .Bridge _ => true
  | _ => false

/-- src/capabilities.rs:374-454: the `match id` of `parse_cap`; `.context(XSnafu { ptr })` is
`mapErr (X ptr)`. -/
def decodeKind (header : Header.Header) (ptr : U8) (id : U8) (cap_data : Bytes) :
    Res CapabilityError CapabilityKind :=
  match id.toNat with
  | 0x00 => .ok .NullCapability
  | 0x01 => ((PowerManagementInterface.PowerManagementInterface.ofBytes cap_data).map'
      .PowerManagementInterface).mapErr (.Data ptr)
  | 0x02 => ((AcceleratedGraphicsPort.AcceleratedGraphicsPort.ofBytes cap_data).map'
      .AcceleratedGraphicsPort).mapErr (.Data ptr)
  | 0x03 => ((VitalProductData.ofBytes cap_data).map' .VitalProductData).mapErr (.Data ptr)
  | 0x04 => ((SlotIdentification.ofBytes cap_data).map' .SlotIdentification).mapErr (.Data ptr)
  | 0x05 => ((MessageSignaledInterrups.MessageSignaledInterrups.ofBytes cap_data).map'
      .MessageSignaledInterrups).mapErr (.MessageSignaledInterrups ptr)
  | 0x06 => .ok .CompactPciHotSwap
  | 0x07 =>
    if header.isBridge then
      ((PciX.PciXBridge.ofBytes cap_data).map' .PciXBridge).mapErr (.PciXBridge ptr)
    else ((PciX.PciX.ofBytes cap_data).map' .PciX).mapErr (.PciX ptr)
  | 0x08 => ((Hypertransport.Hypertransport.ofBytes cap_data).map' .Hypertransport).mapErr
      (.Hypertransport ptr)
  | 0x09 => ((VendorSpecific.VendorSpecific.tryNew cap_data header.vendor_id header.device_id).map'
      .VendorSpecific).mapErr (.VendorSpecific ptr)
  | 0x0a => ((DebugPort.ofBytes cap_data).map' .DebugPort).mapErr (.Data ptr)
  | 0x0b => .ok .CompactPciResourceControl
  | 0x0c => .ok .PciHotPlug
  | 0x0d => ((BridgeSubsystemVendorId.ofBytes cap_data).map' .BridgeSubsystemVendorId).mapErr
      (.Data ptr)
  | 0x0e => .ok .Agp8x
  | 0x0f => .ok .SecureDevice
  | 0x10 => ((PciExpress.PciExpress.ofBytes cap_data).map' .PciExpress).mapErr (.PciExpress ptr)
  | 0x11 => ((MsiX.MsiX.ofBytes cap_data).map' .MsiX).mapErr (.Data ptr)
  | 0x12 => ((Sata.ofBytes cap_data).map' .Sata).mapErr (.Data ptr)
  | 0x13 => ((AdvancedFeatures.ofBytes cap_data).map' .AdvancedFeatures).mapErr (.Data ptr)
  | 0x14 => ((EnhancedAllocation.EnhancedAllocation.tryNew cap_data header.isBridge).map'
      .EnhancedAllocation).mapErr (.EnhancedAllocation ptr)
  | 0x15 => ((FlatteningPortalBridge.FlatteningPortalBridge.ofBytes cap_data).map'
      .FlatteningPortalBridge).mapErr (.Data ptr)
  | _ => .ok (.Reserved id)

/-- src/capabilities.rs:361-456; the second component is the value left in `*pointer`. -/
def parseCap (bytes : Bytes) (pointer : U8) (header : Header.Header) :
    Res CapabilityError Capability × U8 :=
  let ptr := pointer
  if pointer.toNat < DDR_OFFSET then (.err .Pointer, 0)
  else
    let offset := pointer.toNat - DDR_OFFSET
    match getFrom bytes offset with
    | some (id :: next :: rest) =>
      ((decodeKind header ptr id rest).map' fun kind => { pointer := ptr, kind := kind }, next)
    | _ => (.err (.Header ptr), pointer)

/-- src/capabilities.rs:341-345 -/
structure Capabilities where
  data : Bytes
  header : Header.Header
  pointer : U8
  deriving DecidableEq, Repr

/-- src/capabilities.rs:346-350 -/
def Capabilities.new (data : Bytes) (header : Header.Header) : Capabilities :=
  { data := data, header := header, pointer := header.capabilities_pointer }

/-- src/capabilities.rs:351-358: the item (a `Result`, or a panic) and the state left behind. -/
def Capabilities.next (s : Capabilities) :
    Option (Res CapabilityError Capability) × Capabilities :=
  if s.pointer ≠ 0 then
    let (item, pointer) := parseCap s.data s.pointer s.header
    (some item, { s with pointer := pointer })
  else (none, s)

/-- State after `k` calls of `next`. -/
def Capabilities.after (s : Capabilities) : Nat → Capabilities
  | 0 => s
  | k + 1 => (s.next.2).after k

/-- Result of the call of `next` number `k` (counting from 0). -/
def Capabilities.item (s : Capabilities) (k : Nat) : Option (Res CapabilityError Capability) :=
  (s.after k).next.1

end Pcics
