import Verif.Model.Ext.ComputeExpressLink
/- Model of src/extended_capabilities/designated_vendor_specific_extended_capability.rs -/

namespace Pcics.DesignatedVendorSpecificExtendedCapability

/-- src/extended_capabilities/designated_vendor_specific_extended_capability.rs:48-70 -/
inductive DesignatedVendorSpecificExtendedCapabilityError where
  | Mandatory
  | VendorSpecificRegisters (dvsec_vendor_id : U16) (dvsec_revision : U8) (dvsec_length : U16)
      (dvsec_id : U16) (real : Nat)
  | ComputeExpressLink (source : ComputeExpressLink.ComputeExpressLinkError)
  deriving DecidableEq, Repr

/-- src/extended_capabilities/designated_vendor_specific_extended_capability.rs:93-96 -/
inductive DvsecType where
  | Unspecified (v : Bytes)
  | ComputeExpressLink (v : ComputeExpressLink.ComputeExpressLink)
  deriving DecidableEq, Repr

/-- src/extended_capabilities/designated_vendor_specific_extended_capability.rs:77-89 -/
structure DesignatedVendorSpecificExtendedCapability where
  dvsec_vendor_id : U16
  dvsec_revision : U8
  dvsec_length : U16
  dvsec_id : U16
  dvsec_type : DvsecType
  deriving DecidableEq, Repr

/-- src/extended_capabilities/designated_vendor_specific_extended_capability.rs:108-141 -/
def DesignatedVendorSpecificExtendedCapability.ofBytes (slice : Bytes) :
    Res DesignatedVendorSpecificExtendedCapabilityError
      DesignatedVendorSpecificExtendedCapability := do
  let (dvsec_header_1, dvsec_id) ← BP.head (do
    let _ ← le32
    let dvsec_header_1 ← le32
    let dvsec_id ← le16
    return (dvsec_header_1, dvsec_id)) .Mandatory slice
  let (dvsec_vendor_id, dvsec_revision, dvsec_length) :=
    runBits dvsec_header_1 (do
      let dvsec_vendor_id ← bits 16
      let dvsec_revision ← bits 4
      let dvsec_length ← bits 12
      return (dvsec_vendor_id, dvsec_revision, dvsec_length) : BR (U16 × U8 × U16))
  let dvsec_vendor_specific_registers ← Res.okOr
    (.VendorSpecificRegisters dvsec_vendor_id dvsec_revision dvsec_length dvsec_id slice.length)
    (getRange slice 0x0a dvsec_length.toNat)
  let dvsec_type ←
    if dvsec_vendor_id = 0x1e98 then
      ((ComputeExpressLink.ComputeExpressLink.tryNew dvsec_vendor_specific_registers dvsec_id).map'
        DvsecType.ComputeExpressLink).mapErr .ComputeExpressLink
    else .ok (.Unspecified dvsec_vendor_specific_registers)
  return {
    dvsec_vendor_id := dvsec_vendor_id
    dvsec_revision := dvsec_revision
    dvsec_length := dvsec_length
    dvsec_id := dvsec_id
    dvsec_type := dvsec_type }

end Pcics.DesignatedVendorSpecificExtendedCapability
