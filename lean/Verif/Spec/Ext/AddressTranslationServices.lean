import Verif.Model.Ext.AddressTranslationServices
import Verif.Spec
/- Specification of src/extended_capabilities/address_translation_services.rs: positions and value tables. -/

namespace Pcics.AddressTranslationServices
open Spec

/-- Layout of `AtsCapability`. -/
def AtsCapability.spec (w : U16) : AtsCapability :=
  {
    invalidate_queue_depth := fld w 0 5, page_aligned_request := flag w 5,
    global_invalidate_supported := flag w 6 }

/-- Layout of `AtsControl`. -/
def AtsControl.spec (w : U16) : AtsControl :=
  { smallest_translation_unit := fld w 0 5, enable := flag w 15 }

/-- `d` starts after the extended capability header. -/
def AddressTranslationServices.spec (d : Bytes) : AddressTranslationServices where
  ats_capability := .spec (rd16 d 0)
  ats_control := .spec (rd16 d 2)

end Pcics.AddressTranslationServices
