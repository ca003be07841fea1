import Verif.Spec.Cap.Hypertransport

/- Link frequency of any byte, as a hand-made interface can hold: the register field has four bits. -/

namespace Pcics.Hypertransport
open Spec

/-- Codes that fit the field are looked up, any other is reserved and cut to the five bits of the
combined code. -/
def LinkFrequency.ofAny (ext : Bool) (v : U8) : LinkFrequency :=
  if v.toNat < 16 then .spec ext (fld v 0 4)
  else .Reserved (cat (BitVec.ofBool ext) (fld v 0 4 : BitVec 4))

end Pcics.Hypertransport
