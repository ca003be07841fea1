import Verif.Model.Capabilities
import Verif.Spec
import Verif.Spec.Cap.Small
import Verif.Spec.Cap.PowerManagementInterface
import Verif.Spec.Cap.AcceleratedGraphicsPort
import Verif.Spec.Cap.MessageSignaledInterrups
import Verif.Spec.Cap.PciX
import Verif.Spec.Cap.Hypertransport
import Verif.Spec.Cap.VendorSpecific
import Verif.Spec.Cap.PciExpress
import Verif.Spec.Cap.MsiX
import Verif.Spec.Cap.EnhancedAllocation
import Verif.Spec.Cap.FlatteningPortalBridge
/- Specification of src/capabilities.rs: the linked list of capabilities in the device dependent
region, which holds configuration space from address 0x40 on. -/

namespace Pcics
open Spec

/-- A two-byte capability header is available at configuration address `p`. -/
def capFits (d : Bytes) (p : U8) : Prop := 0x40 ≤ p.toNat ∧ p.toNat - 0x40 + 2 ≤ d.length

instance (d : Bytes) (p : U8) : Decidable (capFits d p) := by unfold capFits; infer_instance

/-- Capability id: the byte at address `p`. -/
def capId (d : Bytes) (p : U8) : U8 := byteAt d (p.toNat - 0x40)

/-- Next pointer: the byte at address `p + 1`. -/
def capNext (d : Bytes) (p : U8) : U8 := byteAt d (p.toNat + 1 - 0x40)

/-- Capability registers: from address `p + 2` to the end of the region. -/
def capData (d : Bytes) (p : U8) : Bytes := d.drop (p.toNat + 2 - 0x40)

/-- `CapChain d p ps q`: starting from pointer `p` and following the next pointers one visits the
capabilities at `ps`, in this order, each with an available header, and is then left with the
pointer `q`. -/
inductive CapChain (d : Bytes) : U8 → List U8 → U8 → Prop
  | stop (p : U8) : CapChain d p [] p
  | step {p q : U8} {ps : List U8} (fits : capFits d p) (rest : CapChain d (capNext d p) ps q) :
      CapChain d p (p :: ps) q

/-- Registers of `need` bytes decoded as `k`, or a data error. -/
def plainKind (ptr : U8) (d : Bytes) (name : String) (need : Nat) (k : CapabilityKind) :
    Res CapabilityError CapabilityKind :=
  if need ≤ d.length then .ok k else .err (.Data ptr ⟨name, need⟩)

def msiKind (ptr : U8) (d : Bytes) : Res CapabilityError CapabilityKind :=
  let addr64 := flag (rd16 d 0) 7
  let pvm := flag (rd16 d 0) 8
  if d.length < 2 then .err (.MessageSignaledInterrups ptr .MessageControl)
  else if d.length < MessageSignaledInterrups.MessageSignaledInterrups.specSize addr64 pvm then
    .err (.MessageSignaledInterrups ptr
      (MessageSignaledInterrups.MessageSignaledInterrups.specError addr64 pvm))
  else .ok (.MessageSignaledInterrups
    (MessageSignaledInterrups.MessageSignaledInterrups.spec d addr64 pvm))

/-- PCI-X has different registers in a bridge. -/
def pciXKind (bridge : Bool) (ptr : U8) (d : Bytes) : Res CapabilityError CapabilityKind :=
  let ver : U8 := fld (rd16 d 0) 12 2
  if bridge then
    if d.length < 14 then .err (.PciXBridge ptr .Mandatory)
    else if ver = 1 ∧ d.length < 30 then .err (.PciXBridge ptr .BridgeEccMode2Only)
    else if ver = 2 ∧ d.length < 30 then .err (.PciXBridge ptr .BridgeEccMode1OrMode2)
    else .ok (.PciXBridge (PciX.PciXBridge.spec d))
  else
    if d.length < 6 then .err (.PciX ptr .CommandAndStatus)
    else if ver = 1 ∧ d.length < 22 then .err (.PciX ptr .EccMode2Only)
    else if ver = 2 ∧ d.length < 22 then .err (.PciX ptr .EccMode1OrMode2)
    else .ok (.PciX (PciX.PciX.spec d))

def hypertransportKind (ptr : U8) (d : Bytes) : Res CapabilityError CapabilityKind :=
  if d.length < 2 then .err (.Hypertransport ptr .CapabilityType)
  else
    match Hypertransport.blockSpec d (fld (rd16 d 0) 11 5) with
    | .ok x => .ok (.Hypertransport x)
    | .err e => .err (.Hypertransport ptr e)
    | .panic => .panic

def vendorSpecificKind (vendor device : U16) (ptr : U8) (d : Bytes) :
    Res CapabilityError CapabilityKind :=
  let l := (byteAt d 0).toNat
  if d = [] then .err (.VendorSpecific ptr .LengthUnreadable)
  else if l < 2 then .err (.VendorSpecific ptr (.Length (byteAt d 0)))
  else if l < 3 ∨ d.length + 2 < l then .err (.VendorSpecific ptr (.Data (l - 2)))
  else if vendor = 0x1af4 ∧ 0x1000 ≤ device.toNat ∧ device.toNat ≤ 0x107f then
    if l < 16 then .err (.VendorSpecific ptr .Virtio)
    else .ok (.VendorSpecific (.Virtio (.spec (VendorSpecific.payload d))))
  else .ok (.VendorSpecific (.Unspecified (VendorSpecific.payload d)))

def pciExpressKind (ptr : U8) (d : Bytes) : Res CapabilityError CapabilityKind :=
  if d.length < 26 then .err (.PciExpress ptr .RequiredBytesSlice)
  else if PciExpress.needsRoot d ∧ d.length < 34 then .err (.PciExpress ptr .RootBytesSlice)
  else .ok (.PciExpress (.spec d))

def enhancedAllocationKind (bridge : Bool) (ptr : U8) (d : Bytes) :
    Res CapabilityError CapabilityKind :=
  if d.length < (if bridge then 6 else 2) then .err (.EnhancedAllocation ptr .NumEntries)
  else .ok (.EnhancedAllocation {
    num_entries := fld (byteAt d 0) 0 6
    type_1_second_dw :=
      if bridge then some {
        fixed_secondary_bus_number := byteAt d 2
        fixed_subordinate_bus_number := byteAt d 3 }
      else none
    entries := ⟨d.drop (if bridge then 6 else 2), fld (byteAt d 0) 0 6⟩ })

/-- The header is that of a PCI-to-PCI bridge (header layout 1). -/
def typeOne (h : Header.Header) : Bool :=
  match h.header_type with
  | .Normal _ | .Cardbus _ | .Reserved _ => false
  | .Bridge _ => true

/-- What capability id `id` with registers `d` means, as one table. -/
def kindSpec (h : Header.Header) (ptr id : U8) (d : Bytes) : Res CapabilityError CapabilityKind :=
  pick id [
    (0x00, .ok .NullCapability),
    (0x01, plainKind ptr d "Power Management Interface" 6 (.PowerManagementInterface (.spec d))),
    (0x02, plainKind ptr d "AGP" 10 (.AcceleratedGraphicsPort (.spec d))),
    (0x03, plainKind ptr d "Vital Product Data" 6 (.VitalProductData (.spec d))),
    (0x04, plainKind ptr d "Slot Identification" 2 (.SlotIdentification (.spec d))),
    (0x05, msiKind ptr d),
    (0x06, .ok .CompactPciHotSwap),
    (0x07, pciXKind (typeOne h) ptr d),
    (0x08, hypertransportKind ptr d),
    (0x09, vendorSpecificKind h.vendor_id h.device_id ptr d),
    (0x0a, plainKind ptr d "Debug port" 2 (.DebugPort (.spec d))),
    (0x0b, .ok .CompactPciResourceControl),
    (0x0c, .ok .PciHotPlug),
    (0x0d, plainKind ptr d "Bridge Subsystem Vendor ID" 6 (.BridgeSubsystemVendorId (.spec d))),
    (0x0e, .ok .Agp8x),
    (0x0f, .ok .SecureDevice),
    (0x10, pciExpressKind ptr d),
    (0x11, plainKind ptr d "MSI-X" 10 (.MsiX (.spec d))),
    (0x12, plainKind ptr d "Serial ATA" 6 (.Sata (.spec d))),
    (0x13, plainKind ptr d "Advanced Features" 4 (.AdvancedFeatures (.spec d))),
    (0x14, enhancedAllocationKind (typeOne h) ptr d),
    -- the two vector registers of this capability deviate from their specification, see C41
    (0x15, plainKind ptr d "Flattening Portal Bridge" 34 (.FlatteningPortalBridge {
      FlatteningPortalBridge.FlatteningPortalBridge.spec d with
        fpb_rid_vector_control := .read (rd32 d 6) (rd32 d 10)
        fpb_mem_low_vector_control := .read (rd32 d 14) }))]
    (.ok (.Reserved id))

/-- What the walk reports for a capability at pointer `p`. -/
def capItem (h : Header.Header) (d : Bytes) (p : U8) : Res CapabilityError Capability :=
  match kindSpec h p (capId d p) (capData d p) with
  | .ok k => .ok { pointer := p, kind := k }
  | .err e => .err e
  | .panic => .panic

/-- The capability id a kind belongs to. -/
def CapabilityKind.code : CapabilityKind → U8
  | .NullCapability => 0x00
  | .PowerManagementInterface _ => 0x01
  | .AcceleratedGraphicsPort _ => 0x02
  | .VitalProductData _ => 0x03
  | .SlotIdentification _ => 0x04
  | .MessageSignaledInterrups _ => 0x05
  | .CompactPciHotSwap => 0x06
  | .PciX _ => 0x07
  | .PciXBridge _ => 0x07
  | .Hypertransport _ => 0x08
  | .VendorSpecific _ => 0x09
  | .DebugPort _ => 0x0a
  | .CompactPciResourceControl => 0x0b
  | .PciHotPlug => 0x0c
  | .BridgeSubsystemVendorId _ => 0x0d
  | .Agp8x => 0x0e
  | .SecureDevice => 0x0f
  | .PciExpress _ => 0x10
  | .MsiX _ => 0x11
  | .Sata _ => 0x12
  | .AdvancedFeatures _ => 0x13
  | .EnhancedAllocation _ => 0x14
  | .FlatteningPortalBridge _ => 0x15
  | .Reserved id => id

/-- The walk yields finitely many items: from some call on, only `None`. -/
def Capabilities.Terminates (s : Capabilities) : Prop := ∃ n, ∀ k, n ≤ k → s.item k = none

end Pcics
