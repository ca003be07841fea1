import Verif.Spec
/- Normalisation lemmas: sequential readers against absolute positions. -/

namespace Pcics
open Spec

/-! #### byte parser -/

theorem BP.pure_run {α : Type} (a : α) (d : Bytes) : (pure a : BP α) d = some (a, d) := rfl

theorem BP.bind_run {α β : Type} (p : BP α) (f : α → BP β) (d : Bytes) :
    (p >>= f) d = (p d).bind (fun x => f x.1 x.2) := by
  show BP.bind p f d = _
  unfold BP.bind
  cases p d <;> rfl

theorem ite_bind {α β : Type} (c : Prop) [Decidable c] (x : α) (f : α → Option β) :
    (if c then some x else none).bind f = if c then f x else none := by
  split <;> rfl

theorem byteAt_drop (d : Bytes) (k i : Nat) : byteAt (d.drop k) i = byteAt d (k + i) := by
  simp [byteAt, List.getD_eq_getElem?_getD]

theorem rd16_drop (d : Bytes) (k i : Nat) : rd16 (d.drop k) i = rd16 d (k + i) := by
  simp [rd16, byteAt_drop, Nat.add_assoc]

theorem rd32_drop (d : Bytes) (k i : Nat) : rd32 (d.drop k) i = rd32 d (k + i) := by
  simp [rd32, byteAt_drop, Nat.add_assoc]

theorem rd64_drop (d : Bytes) (k i : Nat) : rd64 (d.drop k) i = rd64 d (k + i) := by
  simp [rd64, byteAt_drop, Nat.add_assoc]

theorem le8_run (d : Bytes) :
    le8 d = if 1 ≤ d.length then some (byteAt d 0, d.drop 1) else none := by
  match d with
  | [] => rfl
  | b :: r => simp [le8, byteAt]

theorem le16_run (d : Bytes) :
    le16 d = if 2 ≤ d.length then some (rd16 d 0, d.drop 2) else none := by
  match d with
  | [] => rfl
  | [_] => rfl
  | a :: b :: r => simp [le16, rd16, byteAt]

theorem le32_run (d : Bytes) :
    le32 d = if 4 ≤ d.length then some (rd32 d 0, d.drop 4) else none := by
  match d with
  | [] => rfl
  | [_] => rfl
  | [_, _] => rfl
  | [_, _, _] => rfl
  | a :: b :: c :: e :: r => simp [le32, rd32, byteAt]

theorem le64_run (d : Bytes) :
    le64 d = if 8 ≤ d.length then some (rd64 d 0, d.drop 8) else none := by
  match d with
  | [] => rfl
  | [_] => rfl
  | [_, _] => rfl
  | [_, _, _] => rfl
  | [_, _, _, _] => rfl
  | [_, _, _, _, _] => rfl
  | [_, _, _, _, _, _] => rfl
  | [_, _, _, _, _, _, _] => rfl
  | a :: b :: c :: e :: a' :: b' :: c' :: e' :: r => simp [le64, rd64, byteAt]

theorem bytesN_run (n : Nat) (d : Bytes) :
    bytesN n d = if n ≤ d.length then some (d.take n, d.drop n) else none := rfl

/-! #### bit reader -/

theorem runBits_def {n : Nat} {α : Type} (w : BitVec n) (p : BR α) :
    runBits w p = (p w.toNat).1 := rfl

theorem BR.bind_run {α β : Type} (p : BR α) (f : α → BR β) (v : Nat) :
    (p >>= f) v = f (p v).1 (p v).2 := rfl

theorem BR.pure_run {α : Type} (a : α) (v : Nat) : (pure a : BR α) v = (a, v) := rfl

theorem flag_eq {n : Nat} (w : BitVec n) (k : Nat) : flag w k = decide (w.toNat / 2 ^ k % 2 = 1) := by
  simp [flag, BitVec.getLsbD, Nat.testBit_eq_decide_div_mod_eq]

theorem fld_eq {n m : Nat} (w : BitVec n) (lo len : Nat) :
    (fld w lo len : BitVec m) = BitVec.ofNat m (w.toNat / 2 ^ lo % 2 ^ len) := by
  apply BitVec.eq_of_toNat_eq
  simp [fld, BitVec.toNat_setWidth, BitVec.extractLsb'_toNat, Nat.shiftRight_eq_div_pow]

end Pcics
