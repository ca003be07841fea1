/-
Machine words, outcomes, and the two destructuring mechanisms every decoder of
the crate is written with (the external crate `heterob` 0.3.0):

* `Le((a, b, ..)) = P<N>(bytes).try_into()` with `Seq { head, tail }`:
  consecutive little-endian fields, sizes given by the target types; the
  conversion takes a prefix and fails iff the slice is too short  (`BP` below);
* `Lsb((a, b, ..)) = P<N>::<T, s1, s2, ..>(word).into()`:
  consecutive bit fields starting from the least significant bit, `()` drops a
  field, one-bit fields may be `bool`  (`BR` below).

These semantics of the external crate are part of the trusted base.
-/

namespace Pcics

abbrev U8 := BitVec 8
abbrev U16 := BitVec 16
abbrev U32 := BitVec 32
abbrev U64 := BitVec 64

/-- `&[u8]` -/
abbrev Bytes := List U8

/-- Outcome of a Rust function returning `Result<α, ε>` that may also panic
(`unreachable!()`, slice index out of range, arithmetic overflow). -/
inductive Res (ε α : Type) where
  | ok (a : α)
  | err (e : ε)
  | panic
  deriving DecidableEq, Repr

namespace Res
variable {ε ε' α β : Type}

protected def bind (x : Res ε α) (f : α → Res ε β) : Res ε β :=
  match x with
  | ok a => f a
  | err e => err e
  | panic => panic

instance : Monad (Res ε) where
  pure := ok
  bind := Res.bind

/-- `Result::map_err` (a panic stays a panic) -/
def mapErr (f : ε → ε') : Res ε α → Res ε' α
  | ok a => ok a
  | err e => err (f e)
  | panic => panic

/-- `Result::map` -/
def map' (f : α → β) : Res ε α → Res ε β
  | ok a => ok (f a)
  | err e => err e
  | panic => panic

/-- `Option::ok_or(e)` -/
def okOr (e : ε) : Option α → Res ε α
  | some a => ok a
  | none => err e

/-- `Option::unwrap` -/
def orPanic : Option α → Res ε α
  | some a => ok a
  | none => panic

/-- flatten -/
def join : Res ε (Res ε α) → Res ε α
  | ok a => a
  | err e => err e
  | panic => panic

def isPanic : Res ε α → Bool
  | panic => true
  | _ => false

end Res

/-! ### Byte parser: `P<N>(slice).try_into()` -/

/-- A prefix reader: value and remaining slice, or failure if too short. -/
def BP (α : Type) : Type := Bytes → Option (α × Bytes)

namespace BP
variable {α β : Type}

protected def pure (a : α) : BP α := fun d => some (a, d)

protected def bind (p : BP α) (f : α → BP β) : BP β := fun d =>
  match p d with
  | some (a, r) => f a r
  | none => none

instance : Monad BP where
  pure := BP.pure
  bind := BP.bind

/-- `Seq { head, tail }`, error `e` when the slice is too short -/
def seq {ε : Type} (p : BP α) (e : ε) (d : Bytes) : Res ε (α × Bytes) :=
  Res.okOr e (p d)

/-- `Seq { head, .. }`, error `e` when the slice is too short -/
def head {ε : Type} (p : BP α) (e : ε) (d : Bytes) : Res ε α :=
  Res.okOr e ((p d).map Prod.fst)

/-- `P<N>(array).into()` on an array of the exact total size; a size mismatch (which the Rust
type checker rules out) would be a panic. -/
def arr {ε : Type} (p : BP α) (d : Bytes) : Res ε α :=
  Res.orPanic ((p d).map Prod.fst)

end BP

/-- `u8` field -/
def le8 : BP U8
  | b0 :: r => some (b0, r)
  | _ => none

/-- `u16` field, little endian -/
def le16 : BP U16
  | b0 :: b1 :: r => some (BitVec.ofNat 16 (b0.toNat + 2 ^ 8 * b1.toNat), r)
  | _ => none

/-- `u32` field, little endian -/
def le32 : BP U32
  | b0 :: b1 :: b2 :: b3 :: r =>
    some (BitVec.ofNat 32
      (b0.toNat + 2 ^ 8 * b1.toNat + 2 ^ 16 * b2.toNat + 2 ^ 24 * b3.toNat), r)
  | _ => none

/-- `u64` field, little endian -/
def le64 : BP U64
  | b0 :: b1 :: b2 :: b3 :: b4 :: b5 :: b6 :: b7 :: r =>
    some (BitVec.ofNat 64
      (b0.toNat + 2 ^ 8 * b1.toNat + 2 ^ 16 * b2.toNat + 2 ^ 24 * b3.toNat
        + 2 ^ 32 * b4.toNat + 2 ^ 40 * b5.toNat + 2 ^ 48 * b6.toNat + 2 ^ 56 * b7.toNat), r)
  | _ => none

/-- `[u8; n]` field -/
def bytesN (n : Nat) : BP Bytes := fun d =>
  if n ≤ d.length then some (d.take n, d.drop n) else none

/-- `[u32; n]` field -/
def le32s : Nat → BP (List U32)
  | 0 => pure []
  | n + 1 => do
    let x ← le32
    let xs ← le32s n
    return x :: xs

/-- `slice.get(a..)` -/
def getFrom (d : Bytes) (a : Nat) : Option Bytes :=
  if a ≤ d.length then some (d.drop a) else none

/-- `slice.get(..b)` -/
def getTo (d : Bytes) (b : Nat) : Option Bytes :=
  if b ≤ d.length then some (d.take b) else none

/-- `slice.get(a..b)` -/
def getRange (d : Bytes) (a b : Nat) : Option Bytes :=
  if a ≤ b ∧ b ≤ d.length then some ((d.take b).drop a) else none

/-! ### Bit reader: `P<N>::<T, s1, .., sN>(word).into() : Lsb(..)` -/

/-- A bit field reader over the remaining (already shifted) word. -/
def BR (α : Type) : Type := Nat → α × Nat

namespace BR
variable {α β : Type}

protected def pure (a : α) : BR α := fun v => (a, v)

protected def bind (p : BR α) (f : α → BR β) : BR β := fun v =>
  f (p v).1 (p v).2

instance : Monad BR where
  pure := BR.pure
  bind := BR.bind

end BR

/-- one-bit `bool` field -/
def bit : BR Bool := fun v => (decide (v % 2 = 1), v / 2)

/-- an `s`-bit field delivered in an `m`-bit unsigned integer -/
def bits {m : Nat} (s : Nat) : BR (BitVec m) := fun v => (BitVec.ofNat m (v % 2 ^ s), v / 2 ^ s)

/-- an ignored `s`-bit field (`()`) -/
def skip (s : Nat) : BR Unit := fun v => ((), v / 2 ^ s)

/-- destructure a word -/
def runBits {n : Nat} {α : Type} (w : BitVec n) (p : BR α) : α := (p w.toNat).1

/-- `bool as uN` -/
def b2n (b : Bool) : Nat := if b then 1 else 0

end Pcics
