import Verif.Model.Common
/- Model of src/extended_capabilities/access_control_services.rs -/

namespace Pcics.AccessControlServices

/-- src/extended_capabilities/access_control_services.rs:96-113 -/
structure AcsCapability where
  acs_source_validation : Bool
  acs_translation_blocking : Bool
  acs_p2p_request_redirect : Bool
  acs_p2p_completion_redirect : Bool
  acs_upstream_forwarding : Bool
  acs_p2p_egress_control : Bool
  acs_direct_translated_p2p : Bool
  egress_control_vector_size : U8
  deriving DecidableEq, Repr

/-- src/extended_capabilities/access_control_services.rs:143-158 -/
structure AcsControl where
  acs_source_validation_enable : Bool
  acs_translation_blocking_enable : Bool
  acs_p2p_request_redirect_enable : Bool
  acs_p2p_completion_redirect_enable : Bool
  acs_upstream_forwarding_enable : Bool
  acs_p2p_egress_control_enable : Bool
  acs_direct_translated_p2p_enable : Bool
  deriving DecidableEq, Repr

/-- src/extended_capabilities/access_control_services.rs:57-63 -/
structure AccessControlServices where
  data : Bytes
  acs_capability : AcsCapability
  acs_control : AcsControl
  deriving DecidableEq, Repr

/-- src/extended_capabilities/access_control_services.rs:115-139 -/
def AcsCapability.ofU16 (w : U16) : AcsCapability := runBits w do
  let acs_source_validation ← bit
  let acs_translation_blocking ← bit
  let acs_p2p_request_redirect ← bit
  let acs_p2p_completion_redirect ← bit
  let acs_upstream_forwarding ← bit
  let acs_p2p_egress_control ← bit
  let acs_direct_translated_p2p ← bit
  skip 1
  let egress_control_vector_size ← bits 7
  return {
    acs_source_validation := acs_source_validation,
    acs_translation_blocking := acs_translation_blocking,
    acs_p2p_request_redirect := acs_p2p_request_redirect,
    acs_p2p_completion_redirect := acs_p2p_completion_redirect,
    acs_upstream_forwarding := acs_upstream_forwarding,
    acs_p2p_egress_control := acs_p2p_egress_control,
    acs_direct_translated_p2p := acs_direct_translated_p2p,
    egress_control_vector_size := egress_control_vector_size }

/-- src/extended_capabilities/access_control_services.rs:160-182 -/
def AcsControl.ofU16 (w : U16) : AcsControl := runBits w do
  let acs_source_validation_enable ← bit
  let acs_translation_blocking_enable ← bit
  let acs_p2p_request_redirect_enable ← bit
  let acs_p2p_completion_redirect_enable ← bit
  let acs_upstream_forwarding_enable ← bit
  let acs_p2p_egress_control_enable ← bit
  let acs_direct_translated_p2p_enable ← bit
  skip 9
  return {
    acs_source_validation_enable := acs_source_validation_enable,
    acs_translation_blocking_enable := acs_translation_blocking_enable,
    acs_p2p_request_redirect_enable := acs_p2p_request_redirect_enable,
    acs_p2p_completion_redirect_enable := acs_p2p_completion_redirect_enable,
    acs_upstream_forwarding_enable := acs_upstream_forwarding_enable,
    acs_p2p_egress_control_enable := acs_p2p_egress_control_enable,
    acs_direct_translated_p2p_enable := acs_direct_translated_p2p_enable }

/-- src/extended_capabilities/access_control_services.rs:187-192; `chunks` holds the bytes still
to be cut into chunks of 4. -/
structure EgressControlVectors where
  chunks : Bytes
  dword : U32
  mask : U32
  size : Nat
  deriving DecidableEq, Repr

/-- src/extended_capabilities/access_control_services.rs:193-202 -/
def EgressControlVectors.new (data : Bytes) (size : Nat) : EgressControlVectors where
  chunks := data
  dword := 0
  mask := 1
  size := size

/-- src/extended_capabilities/access_control_services.rs:221-227: a chunk, missing bytes being 0
(a chunk has 1 to 4 bytes, so the `unreachable!()` arm is not reached). -/
def chunkWord (c : Bytes) : U32 := u32le (c.getD 0 0) (c.getD 1 0) (c.getD 2 0) (c.getD 3 0)

/-- src/extended_capabilities/access_control_services.rs:212-234 -/
def EgressControlVectors.next (s : EgressControlVectors) : Option (Bool × EgressControlVectors) := do
  if s.size = 0 then none
  else
    let s ←
      if s.mask = 1 then do
        let (bytes, rest) ← chunk 4 s.chunks
        some { s with chunks := rest, dword := chunkWord bytes }
      else some s
    let result := (s.dword &&& s.mask) != 0
    some (result, { s with mask := s.mask.rotateLeft 1, size := s.size - 1 })

/-- src/extended_capabilities/access_control_services.rs:73-92 -/
def AccessControlServices.ofBytes (slice : Bytes) :
    Res ExtendedCapabilityDataError AccessControlServices := do
  let ((acs_capability, acs_control), tail) ← BP.seq (do
    let acs_capability ← le16
    let acs_control ← le16
    return (acs_capability, acs_control)) { name := "Access Control Services", size := 4 } slice
  return {
    data := tail
    acs_capability := AcsCapability.ofU16 acs_capability
    acs_control := AcsControl.ofU16 acs_control }

/-- src/extended_capabilities/access_control_services.rs:65-71 -/
def AccessControlServices.egress_control_vectors (s : AccessControlServices) :
    EgressControlVectors :=
  let size := s.acs_capability.egress_control_vector_size.toNat
  let e := size / 32 * 4
  EgressControlVectors.new ((getTo s.data e).getD []) size

end Pcics.AccessControlServices
