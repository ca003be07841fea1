import Verif.Model.Cap.MessageSignaledInterrups
import Verif.Spec
/- Specification of src/capabilities/message_signaled_interrups.rs: positions and value tables. -/

namespace Pcics.MessageSignaledInterrups
open Spec

/-- Message control register. -/
def MessageControl.spec (w : U16) : MessageControl where
  msi_enable := flag w 0
  multiple_message_capable := ⟨fld w 1 3⟩
  multiple_message_enable := ⟨fld w 4 3⟩
  a_64_bit_address_capable := flag w 7
  per_vector_masking_capable := flag w 8
  extended_message_data_capable := flag w 9
  extended_message_data_enable := flag w 10

/-- Layout of the structure: `addr64` and `pvm` are bits 7 and 8 of message control.  `d` starts at
offset 2 of the structure; the message address is at 4, then (if 64-bit) the upper address, message
data, extended message data, and (if per-vector masking) mask and pending bits. -/
def MessageSignaledInterrups.spec (d : Bytes) (addr64 pvm : Bool) : MessageSignaledInterrups :=
  let o := if addr64 then 10 else 6
  { message_control := .spec (rd16 d 0)
    message_address := if addr64 then .Qword (cat (rd32 d 6) (rd32 d 2)) else .Dword (rd32 d 2)
    message_data := rd16 d o
    extended_message_data := rd16 d (o + 2)
    mask_bits := if pvm then some (rd32 d (o + 4)) else none
    pending_bits := if pvm then some (rd32 d (o + 8)) else none }

/-- Bytes needed, from offset 2. -/
def MessageSignaledInterrups.specSize (addr64 pvm : Bool) : Nat :=
  10 + (if addr64 then 4 else 0) + (if pvm then 8 else 0)

/-- Error reported when the layout does not fit. -/
def MessageSignaledInterrups.specError (addr64 pvm : Bool) : MessageSignaledInterrupsError :=
  if pvm then (if addr64 then .Size64bitPerVector else .Size32bitPerVector)
  else (if addr64 then .Size64bit else .Size32bit)

end Pcics.MessageSignaledInterrups
