import Verif.Model.Common
/- Model of src/extended_capabilities/vendor_specific_extended_capability.rs -/

namespace Pcics.VendorSpecificExtendedCapability

/-- src/extended_capabilities/vendor_specific_extended_capability.rs:78-86 -/
structure VsecHeader where
  vsec_id : U16
  vsec_rev : U8
  vsec_length : U16
  deriving DecidableEq, Repr

/-- src/extended_capabilities/vendor_specific_extended_capability.rs:90-96 -/
inductive VsecRegisters where
  | Valid (v : Bytes)
  | InvalidLength (v : U16)
  | Incomplete (v : Bytes)
  deriving DecidableEq, Repr

/-- src/extended_capabilities/vendor_specific_extended_capability.rs:42-45 -/
structure VendorSpecificExtendedCapability where
  header : VsecHeader
  registers : VsecRegisters
  deriving DecidableEq, Repr

/-- src/extended_capabilities/vendor_specific_extended_capability.rs:46-74 -/
def VendorSpecificExtendedCapability.ofBytes (slice : Bytes) :
    Res ExtendedCapabilityDataError VendorSpecificExtendedCapability := do
  let (header, tail) ← BP.seq le32
    { name := "Vendor-Specific Extended Capability", size := 4 } slice
  let header := runBits header do
    let vsec_id ← bits 16
    let vsec_rev ← bits 4
    let vsec_length ← bits 12
    return ({ vsec_id := vsec_id, vsec_rev := vsec_rev, vsec_length := vsec_length } : VsecHeader)
  let registers :=
    if 8 ≤ header.vsec_length.toNat then
      match getTo tail (header.vsec_length.toNat - 8) with
      | some slice => .Valid slice
      | none => .Incomplete tail
    else .InvalidLength header.vsec_length
  return { header := header, registers := registers }

end Pcics.VendorSpecificExtendedCapability
