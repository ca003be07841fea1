import Verif.Model.Ext.PageRequestInterface
import Verif.Spec
/- Specification of src/extended_capabilities/page_request_interface.rs: positions and value tables. -/

namespace Pcics.PageRequestInterface
open Spec

/-- `d` starts after the extended capability header. -/
def PageRequestInterface.spec (d : Bytes) : PageRequestInterface where
  page_request_control := { enable := flag (rd16 d 0) 0, reset := flag (rd16 d 0) 1 }
  page_request_status := {
    response_failure := flag (rd16 d 2) 0
    unexpected_page_request_group_index := flag (rd16 d 2) 1
    stopped := flag (rd16 d 2) 8
    prg_response_pasid_required := flag (rd16 d 2) 15 }
  outstanding_page_request_capacity := rd32 d 4
  outstanding_page_request_allocation := rd32 d 8

end Pcics.PageRequestInterface
