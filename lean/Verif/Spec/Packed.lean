import Verif.Spec
/- Specification of tables of entries smaller than a byte. -/

namespace Pcics.Spec

/-- A table of `size`-bit entries, `8 / size` in each byte, the first one in the low bits. -/
def packed (size : Nat) (t : Bytes) : List U8 :=
  (List.range (t.length * (8 / size))).map fun i =>
    fld (byteAt t (i / (8 / size))) (i % (8 / size) * size) size

end Pcics.Spec
