import Verif.Base
/- Error values shared by the capability decoders. -/

namespace Pcics

/-- src/capabilities.rs:330-333 -/
structure CapabilityDataError where
  name : String
  size : Nat
  deriving DecidableEq, Repr

/-- src/extended_capabilities.rs:177-180 -/
structure ExtendedCapabilityDataError where
  name : String
  size : Nat
  deriving DecidableEq, Repr

/-- `uN::wrapping_shl(k)`: the amount is taken modulo the width. -/
def wrappingShl {n : Nat} (w : BitVec n) (k : Nat) : BitVec n := w <<< (k % n)

/-- `uN::trailing_zeros()` (the width for 0) -/
def trailingZeros {n : Nat} (w : BitVec n) : Nat := (List.range n).findIdx (w.getLsbD ·)

/-- `u32::from_le_bytes([a, b, c, d])` -/
def u32le (a b c d : U8) : U32 := d ++ c ++ b ++ a

/-- The first `k` items of an iterator: `it.take(k).collect()`. `next` gives the item and the state
of the iterator after it, or `none` at the end. -/
def takeIter {σ α : Type} (next : σ → Option (α × σ)) : Nat → σ → List α
  | 0, _ => []
  | k + 1, s =>
    match next s with
    | none => []
    | some (a, s') => a :: takeIter next k s'

/-- `core::slice::Chunks::next`: the next `n` bytes (fewer at the end), none when used up. -/
def chunk (n : Nat) (d : Bytes) : Option (Bytes × Bytes) :=
  if d = [] then none else some (d.take n, d.drop n)

end Pcics
