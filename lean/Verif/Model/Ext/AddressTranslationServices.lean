import Verif.Model.Common
/- Model of src/extended_capabilities/address_translation_services.rs -/

namespace Pcics.AddressTranslationServices

/-- src/extended_capabilities/address_translation_services.rs:68-75 -/
structure AtsCapability where
  invalidate_queue_depth : U8
  page_aligned_request : Bool
  global_invalidate_supported : Bool
  deriving DecidableEq, Repr

/-- src/extended_capabilities/address_translation_services.rs:90-95 -/
structure AtsControl where
  smallest_translation_unit : U8
  enable : Bool
  deriving DecidableEq, Repr

/-- src/extended_capabilities/address_translation_services.rs:40-45 -/
structure AddressTranslationServices where
  ats_capability : AtsCapability
  ats_control : AtsControl
  deriving DecidableEq, Repr

/-- src/extended_capabilities/address_translation_services.rs:77-87 -/
def AtsCapability.ofU16 (w : U16) : AtsCapability := runBits w do
  let invalidate_queue_depth ← bits 5
  let page_aligned_request ← bit
  let global_invalidate_supported ← bit
  skip 9
  return {
    invalidate_queue_depth := invalidate_queue_depth,
    page_aligned_request := page_aligned_request,
    global_invalidate_supported := global_invalidate_supported }

/-- src/extended_capabilities/address_translation_services.rs:97-105 -/
def AtsControl.ofU16 (w : U16) : AtsControl := runBits w do
  let smallest_translation_unit ← bits 5
  skip 10
  let enable ← bit
  return { smallest_translation_unit := smallest_translation_unit, enable := enable }

/-- src/extended_capabilities/address_translation_services.rs:46-64 -/
def AddressTranslationServices.ofBytes (slice : Bytes) : Res ExtendedCapabilityDataError AddressTranslationServices := do
  let (ats_capability, ats_control) ← BP.head (do
    let ats_capability ← le16
    let ats_control ← le16
    return (ats_capability, ats_control))
    { name := "Address Translation Services", size := 4 } slice
  return {
    ats_capability := AtsCapability.ofU16 ats_capability,
    ats_control := AtsControl.ofU16 ats_control }

end Pcics.AddressTranslationServices
