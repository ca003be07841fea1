import Verif.Base
/-
Specification vocabulary.  Nothing here mentions the parser or the bit reader:
a property names a byte offset inside the structure and bit positions inside a
register, exactly as the PCI specifications do.
-/

namespace Pcics.Spec

/-- Byte at absolute offset `i` (0 past the end; theorems guard the length). -/
def byteAt (d : Bytes) (i : Nat) : U8 := d.getD i 0

/-- Little-endian 16-bit value at absolute offset `i`. -/
def rd16 (d : Bytes) (i : Nat) : U16 :=
  BitVec.ofNat 16 ((byteAt d i).toNat + 2 ^ 8 * (byteAt d (i + 1)).toNat)

/-- Little-endian 32-bit value at absolute offset `i`. -/
def rd32 (d : Bytes) (i : Nat) : U32 :=
  BitVec.ofNat 32 ((byteAt d i).toNat + 2 ^ 8 * (byteAt d (i + 1)).toNat
    + 2 ^ 16 * (byteAt d (i + 2)).toNat + 2 ^ 24 * (byteAt d (i + 3)).toNat)

/-- Little-endian 64-bit value at absolute offset `i`. -/
def rd64 (d : Bytes) (i : Nat) : U64 :=
  BitVec.ofNat 64 ((byteAt d i).toNat + 2 ^ 8 * (byteAt d (i + 1)).toNat
    + 2 ^ 16 * (byteAt d (i + 2)).toNat + 2 ^ 24 * (byteAt d (i + 3)).toNat
    + 2 ^ 32 * (byteAt d (i + 4)).toNat + 2 ^ 40 * (byteAt d (i + 5)).toNat
    + 2 ^ 48 * (byteAt d (i + 6)).toNat + 2 ^ 56 * (byteAt d (i + 7)).toNat)

/-- `n` consecutive little-endian 32-bit values from absolute offset `i`. -/
def rd32s (d : Bytes) (i n : Nat) : List U32 := (List.range n).map fun k => rd32 d (i + 4 * k)

/-- Bit `k` of a register. -/
def flag {n : Nat} (w : BitVec n) (k : Nat) : Bool := w.getLsbD k

/-- Bits `lo + len - 1 .. lo` of a register, as an `m`-bit unsigned integer. -/
def fld {n m : Nat} (w : BitVec n) (lo len : Nat) : BitVec m :=
  (w.extractLsb' lo len).setWidth m

/-- Concatenation of an upper and a lower part, as a `k`-bit unsigned integer. -/
def cat {n m k : Nat} (hi : BitVec n) (lo : BitVec m) : BitVec k := (hi ++ lo).setWidth k

/-- Value table of an encoded field: the entry for code `c`, `other` if there is none. -/
def pick {n : Nat} {α : Type} (c : BitVec n) : List (BitVec n × α) → α → α
  | [], other => other
  | (k, v) :: t, other => if c = k then v else pick c t other

end Pcics.Spec
