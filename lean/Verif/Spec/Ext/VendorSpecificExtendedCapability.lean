import Verif.Model.Ext.VendorSpecificExtendedCapability
import Verif.Spec
/- Specification of src/extended_capabilities/vendor_specific_extended_capability.rs: positions and value tables. -/

namespace Pcics.VendorSpecificExtendedCapability
open Spec

/-- Header word after the extended capability header: ID 15:0, revision 19:16, length 31:20. -/
def VsecHeader.spec (d : Bytes) : VsecHeader where
  vsec_id := fld (rd32 d 0) 0 16
  vsec_rev := fld (rd32 d 0) 16 4
  vsec_length := fld (rd32 d 0) 20 12

/-- The length counts the extended capability header (4 bytes, before `d`), the header word and the
registers. -/
def VsecRegisters.spec (d : Bytes) : VsecRegisters :=
  let len := (VsecHeader.spec d).vsec_length
  if len.toNat < 8 then .InvalidLength len
  else if len.toNat ≤ 4 + d.length then .Valid ((d.take (len.toNat - 4)).drop 4)
  else .Incomplete (d.drop 4)

end Pcics.VendorSpecificExtendedCapability
