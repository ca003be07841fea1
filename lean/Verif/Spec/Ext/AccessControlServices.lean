import Verif.Model.Ext.AccessControlServices
import Verif.Spec
/- Specification of src/extended_capabilities/access_control_services.rs: positions and value tables. -/

namespace Pcics.AccessControlServices
open Spec

/-- Layout of `AcsCapability`; the vector size is an 8-bit field in the PCI Express specification. -/
def AcsCapability.spec (w : U16) : AcsCapability :=
  {
    acs_source_validation := flag w 0, acs_translation_blocking := flag w 1,
    acs_p2p_request_redirect := flag w 2, acs_p2p_completion_redirect := flag w 3,
    acs_upstream_forwarding := flag w 4, acs_p2p_egress_control := flag w 5,
    acs_direct_translated_p2p := flag w 6, egress_control_vector_size := fld w 8 8 }

/-- What the code takes the register for instead (C47): the vector size without its top bit. -/
def AcsCapability.read (w : U16) : AcsCapability :=
  { AcsCapability.spec w with egress_control_vector_size := fld w 8 7 }

/-- Layout of `AcsControl`. -/
def AcsControl.spec (w : U16) : AcsControl :=
  {
    acs_source_validation_enable := flag w 0, acs_translation_blocking_enable := flag w 1,
    acs_p2p_request_redirect_enable := flag w 2, acs_p2p_completion_redirect_enable := flag w 3,
    acs_upstream_forwarding_enable := flag w 4, acs_p2p_egress_control_enable := flag w 5,
    acs_direct_translated_p2p_enable := flag w 6 }

/-- Bit `i` of the egress control vector stored in `d`: bit `i mod 32` of dword `i / 32`. -/
def vectorBit (d : Bytes) (i : Nat) : Bool := flag (rd32 d (4 * (i / 32))) (i % 32)

end Pcics.AccessControlServices
