import Verif.Model.Ext.ProcessAddressSpaceId
import Verif.Spec
/- Specification of src/extended_capabilities/process_address_space_id.rs: positions and value tables. -/

namespace Pcics.ProcessAddressSpaceId
open Spec

/-- Layout of `PacidCapability`. -/
def PacidCapability.spec (w : U16) : PacidCapability :=
  {
    execute_permission_supported := flag w 1, privileged_mode_supported := flag w 2,
    max_pasid_width := fld w 8 5 }

/-- Layout of `PacidControl`. -/
def PacidControl.spec (w : U16) : PacidControl :=
  {
    pasid_enable := flag w 0, execute_permission_enable := flag w 1,
    privileged_mode_enable := flag w 2 }

/-- `d` starts after the extended capability header. -/
def ProcessAddressSpaceId.spec (d : Bytes) : ProcessAddressSpaceId where
  pacid_capability := .spec (rd16 d 0)
  pacid_control := .spec (rd16 d 2)

end Pcics.ProcessAddressSpaceId
