import Verif.Spec

/- Arbitration table entries of any size up to 8 bits, as a hand-made table can have. -/

namespace Pcics.Spec

/-- What is read of one byte: bits 0, `size`, `2 * size`, ... modulo 8 upwards, until the position is 0
again; bits past the byte read as zero.  For sizes dividing 8 this is every entry once. -/
def readings (size : Nat) (b : U8) : List U8 :=
  (List.range (8 / Nat.gcd size 8)).map fun j => fld b (j * size % 8) size

end Pcics.Spec
