import Verif.Model.Common
/- Model of src/extended_capabilities/ln_requester.rs -/

namespace Pcics.LnRequester

/-- src/extended_capabilities/ln_requester.rs:83-91 -/
structure LnrCapability where
  lnr_64_supported : Bool
  lnr_128_supported : Bool
  lnr_registration_max : U8
  deriving DecidableEq, Repr

/-- src/extended_capabilities/ln_requester.rs:107-115 -/
structure LnrControl where
  lnr_enable : Bool
  lnr_cls : Bool
  lnr_registration_limit : U8
  deriving DecidableEq, Repr

/-- src/extended_capabilities/ln_requester.rs:48-51 -/
structure LnRequester where
  lnr_capability : LnrCapability
  lnr_control : LnrControl
  deriving DecidableEq, Repr

/-- src/extended_capabilities/ln_requester.rs:93-103 -/
def LnrCapability.ofU16 (w : U16) : LnrCapability := runBits w do
  let lnr_64_supported ← bit
  let lnr_128_supported ← bit
  skip 6
  let lnr_registration_max ← bits 5
  skip 3
  return {
    lnr_64_supported := lnr_64_supported, lnr_128_supported := lnr_128_supported,
    lnr_registration_max := lnr_registration_max }

/-- src/extended_capabilities/ln_requester.rs:117-127 -/
def LnrControl.ofU16 (w : U16) : LnrControl := runBits w do
  let lnr_enable ← bit
  let lnr_cls ← bit
  skip 6
  let lnr_registration_limit ← bits 5
  skip 3
  return {
    lnr_enable := lnr_enable, lnr_cls := lnr_cls,
    lnr_registration_limit := lnr_registration_limit }

/-- src/extended_capabilities/ln_requester.rs:54-56 -/
def LnRequester.SIZE : Nat := 8

/-- src/extended_capabilities/ln_requester.rs:58-67; the header placeholder is four ignored bytes -/
def LnRequester.ofArray {ε : Type} (bytes : Bytes) : Res ε LnRequester := do
  let (lnr_capability, lnr_control) ← BP.arr (do
    let _ ← le32
    let lnr_capability ← le16
    let lnr_control ← le16
    return (lnr_capability, lnr_control)) bytes
  return {
    lnr_capability := LnrCapability.ofU16 lnr_capability,
    lnr_control := LnrControl.ofU16 lnr_control }

/-- src/extended_capabilities/ln_requester.rs:69-79 -/
def LnRequester.ofBytes (slice : Bytes) : Res ExtendedCapabilityDataError LnRequester := do
  let head ← BP.head (bytesN LnRequester.SIZE)
    { name := "LN Requester", size := LnRequester.SIZE } slice
  LnRequester.ofArray head

end Pcics.LnRequester
