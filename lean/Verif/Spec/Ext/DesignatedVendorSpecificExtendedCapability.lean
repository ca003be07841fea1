import Verif.Model.Ext.DesignatedVendorSpecificExtendedCapability
import Verif.Spec.Ext.ComputeExpressLink
/- Specification of src/extended_capabilities/designated_vendor_specific_extended_capability.rs: positions and value tables. -/

namespace Pcics.DesignatedVendorSpecificExtendedCapability
open Spec

/-- Structure with the DVSEC registers interpreted as `t`; `d` starts with the extended capability
header: header 1 at 4 (vendor 15:0, revision 19:16, length 31:20), header 2 at 8 (ID). -/
def DesignatedVendorSpecificExtendedCapability.spec (d : Bytes) (t : DvsecType) :
    DesignatedVendorSpecificExtendedCapability where
  dvsec_vendor_id := fld (rd32 d 4) 0 16
  dvsec_revision := fld (rd32 d 4) 16 4
  dvsec_length := fld (rd32 d 4) 20 12
  dvsec_id := rd16 d 8
  dvsec_type := t

/-- The DVSEC registers: bytes from 0x0a up to the announced length. -/
def dvsecRegisters (d : Bytes) : Bytes := (d.take (fld (rd32 d 4) 20 12 : U16).toNat).drop 0x0a

/-- The registers of a DVSEC of the CXL consortium (vendor 0x1e98) are decoded further. -/
def DvsecType.spec (d : Bytes) : Res DesignatedVendorSpecificExtendedCapabilityError DvsecType :=
  if (fld (rd32 d 4) 0 16 : U16) = 0x1e98 then
    match ComputeExpressLink.ComputeExpressLink.spec (dvsecRegisters d) (rd16 d 8) with
    | .ok c => .ok (.ComputeExpressLink c)
    | .err e => .err (.ComputeExpressLink e)
    | .panic => .panic
  else .ok (.Unspecified (dvsecRegisters d))

end Pcics.DesignatedVendorSpecificExtendedCapability
