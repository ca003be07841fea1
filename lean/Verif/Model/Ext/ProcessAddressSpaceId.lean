import Verif.Model.Common
/- Model of src/extended_capabilities/process_address_space_id.rs -/

namespace Pcics.ProcessAddressSpaceId

/-- src/extended_capabilities/process_address_space_id.rs:67-74 -/
structure PacidCapability where
  execute_permission_supported : Bool
  privileged_mode_supported : Bool
  max_pasid_width : U8
  deriving DecidableEq, Repr

/-- src/extended_capabilities/process_address_space_id.rs:96-103 -/
structure PacidControl where
  pasid_enable : Bool
  execute_permission_enable : Bool
  privileged_mode_enable : Bool
  deriving DecidableEq, Repr

/-- src/extended_capabilities/process_address_space_id.rs:41-44 -/
structure ProcessAddressSpaceId where
  pacid_capability : PacidCapability
  pacid_control : PacidControl
  deriving DecidableEq, Repr

/-- src/extended_capabilities/process_address_space_id.rs:76-92 -/
def PacidCapability.ofU16 (w : U16) : PacidCapability := runBits w do
  skip 1
  let execute_permission_supported ← bit
  let privileged_mode_supported ← bit
  skip 5
  let max_pasid_width ← bits 5
  skip 3
  return {
    execute_permission_supported := execute_permission_supported,
    privileged_mode_supported := privileged_mode_supported, max_pasid_width := max_pasid_width }

/-- src/extended_capabilities/process_address_space_id.rs:105-115 -/
def PacidControl.ofU16 (w : U16) : PacidControl := runBits w do
  let pasid_enable ← bit
  let execute_permission_enable ← bit
  let privileged_mode_enable ← bit
  skip 13
  return {
    pasid_enable := pasid_enable, execute_permission_enable := execute_permission_enable,
    privileged_mode_enable := privileged_mode_enable }

/-- src/extended_capabilities/process_address_space_id.rs:45-63 -/
def ProcessAddressSpaceId.ofBytes (slice : Bytes) : Res ExtendedCapabilityDataError ProcessAddressSpaceId := do
  let (pacid_capability, pacid_control) ← BP.head (do
    let pacid_capability ← le16
    let pacid_control ← le16
    return (pacid_capability, pacid_control))
    { name := "Process Address Space ID", size := 4 } slice
  return {
    pacid_capability := PacidCapability.ofU16 pacid_capability,
    pacid_control := PacidControl.ofU16 pacid_control }

end Pcics.ProcessAddressSpaceId
