import Verif.Model.Common
/- Model of src/extended_capabilities/page_request_interface.rs -/

namespace Pcics.PageRequestInterface

/-- src/extended_capabilities/page_request_interface.rs:98-103 -/
structure PageRequestControl where
  enable : Bool
  reset : Bool
  deriving DecidableEq, Repr

/-- src/extended_capabilities/page_request_interface.rs:107-116 -/
structure PageRequestStatus where
  response_failure : Bool
  unexpected_page_request_group_index : Bool
  stopped : Bool
  prg_response_pasid_required : Bool
  deriving DecidableEq, Repr

/-- src/extended_capabilities/page_request_interface.rs:45-54 -/
structure PageRequestInterface where
  page_request_control : PageRequestControl
  page_request_status : PageRequestStatus
  outstanding_page_request_capacity : U32
  outstanding_page_request_allocation : U32
  deriving DecidableEq, Repr

/-- src/extended_capabilities/page_request_interface.rs:55-95 -/
def PageRequestInterface.ofBytes (slice : Bytes) :
    Res ExtendedCapabilityDataError PageRequestInterface := do
  let (control, status, outstanding_page_request_capacity, outstanding_page_request_allocation) ←
    BP.head (do
      let control ← le16
      let status ← le16
      let outstanding_page_request_capacity ← le32
      let outstanding_page_request_allocation ← le32
      return (control, status, outstanding_page_request_capacity,
        outstanding_page_request_allocation))
      { name := "Page Request Interface", size := 12 } slice
  let (enable, reset) := runBits control do
    let enable ← bit
    let reset ← bit
    skip 14
    return (enable, reset)
  let (response_failure, unexpected_page_request_group_index, stopped,
      prg_response_pasid_required) := runBits status do
    let response_failure ← bit
    let unexpected_page_request_group_index ← bit
    skip 6
    let stopped ← bit
    skip 6
    let prg_response_pasid_required ← bit
    return (response_failure, unexpected_page_request_group_index, stopped,
      prg_response_pasid_required)
  return {
    page_request_control := { enable := enable, reset := reset }
    page_request_status := {
      response_failure := response_failure
      unexpected_page_request_group_index := unexpected_page_request_group_index
      stopped := stopped
      prg_response_pasid_required := prg_response_pasid_required }
    outstanding_page_request_capacity := outstanding_page_request_capacity
    outstanding_page_request_allocation := outstanding_page_request_allocation }

end Pcics.PageRequestInterface
