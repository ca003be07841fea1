import Verif.Model.Ext.RootComplexRegisterBlockHeader
import Verif.Spec
/- Specification of src/extended_capabilities/root_complex_register_block_header.rs: positions and value tables. -/

namespace Pcics.RootComplexRegisterBlockHeader
open Spec

/-- Layout of `RcrbCapabilities`. -/
def RcrbCapabilities.spec (w : U32) : RcrbCapabilities :=
  { crs_software_visibility := flag w 0 }

/-- Layout of `RcrbControl`. -/
def RcrbControl.spec (w : U32) : RcrbControl :=
  { crs_software_visibility_enable := flag w 0 }

/-- `d` starts with the extended capability header. -/
def RootComplexRegisterBlockHeader.spec (d : Bytes) : RootComplexRegisterBlockHeader where
  vendor_id := rd16 d 4
  device_id := rd16 d 6
  rcrb_capabilities := .spec (rd32 d 8)
  rcrb_control := .spec (rd32 d 12)

end Pcics.RootComplexRegisterBlockHeader
