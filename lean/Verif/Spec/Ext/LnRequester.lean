import Verif.Model.Ext.LnRequester
import Verif.Spec
/- Specification of src/extended_capabilities/ln_requester.rs: positions and value tables. -/

namespace Pcics.LnRequester
open Spec

/-- Layout of `LnrCapability`. -/
def LnrCapability.spec (w : U16) : LnrCapability :=
  {
    lnr_64_supported := flag w 0, lnr_128_supported := flag w 1,
    lnr_registration_max := fld w 8 5 }

/-- Layout of `LnrControl`. -/
def LnrControl.spec (w : U16) : LnrControl :=
  {
    lnr_enable := flag w 0, lnr_cls := flag w 1, lnr_registration_limit := fld w 8 5 }

/-- `d` starts with the extended capability header. -/
def LnRequester.spec (d : Bytes) : LnRequester where
  lnr_capability := .spec (rd16 d 4)
  lnr_control := .spec (rd16 d 6)

end Pcics.LnRequester
