import Verif.Spec
import Verif.Model.Common
import Mathlib.Tactic.IntervalCases
/- Bitwise equality of words, one bit at a time (every bit position is a separate goal). -/

namespace Pcics

theorem getLsbD_fld {n m : Nat} (w : BitVec n) (lo len i : Nat) :
    (Spec.fld w lo len : BitVec m).getLsbD i = (decide (i < m) && (decide (i < len) && w.getLsbD (lo + i))) := by
  simp [Spec.fld]

theorem getLsbD_cat {n m k : Nat} (hi : BitVec n) (lo : BitVec m) (i : Nat) :
    (Spec.cat hi lo : BitVec k).getLsbD i
      = (decide (i < k) && bif decide (i < m) then lo.getLsbD i else hi.getLsbD (i - m)) := by
  by_cases h : i < m <;> simp [Spec.cat, BitVec.getLsbD_append, h]

theorem ofNat_b2n (n : Nat) (b : Bool) : BitVec.ofNat n (b2n b) = bif b then 1 else 0 := by
  cases b <;> rfl

theorem getLsbD_cond {n : Nat} (b : Bool) (x y : BitVec n) (i : Nat) :
    (bif b then x else y).getLsbD i = bif b then x.getLsbD i else y.getLsbD i := by
  cases b <;> rfl

macro "bv_bits" "[" ds:Lean.Parser.Tactic.simpLemma,* "]" : tactic =>
  `(tactic| (
    apply BitVec.eq_of_getLsbD_eq
    intro i hi
    interval_cases i <;>
    simp [-BitVec.getLsbD_eq_getElem, BitVec.getLsbD_or, BitVec.getLsbD_and, BitVec.getLsbD_not, BitVec.getLsbD_shiftLeft,
      BitVec.getLsbD_ushiftRight, getLsbD_cat, BitVec.getLsbD_setWidth, getLsbD_fld,
      Spec.flag, ofNat_b2n, getLsbD_cond, BitVec.getLsbD_extractLsb', $ds,*]))

theorem toNat_append_add {n m : Nat} (x : BitVec n) (y : BitVec m) :
    (x ++ y).toNat = y.toNat + 2 ^ m * x.toNat := by
  rw [BitVec.toNat_append, ← Nat.shiftLeft_add_eq_or_of_lt y.isLt, Nat.shiftLeft_eq, Nat.mul_comm,
    Nat.add_comm]

theorem rd16_append (d : Bytes) (i : Nat) :
    Spec.rd16 d i = (Spec.byteAt d (i + 1) ++ Spec.byteAt d i : BitVec 16) := by
  apply BitVec.eq_of_toNat_eq
  simp only [Spec.rd16, toNat_append_add, BitVec.toNat_ofNat]
  have h0 := (Spec.byteAt d i).isLt
  have h1 := (Spec.byteAt d (i + 1)).isLt
  omega

theorem rd32_append (d : Bytes) (i : Nat) :
    Spec.rd32 d i = (Spec.byteAt d (i + 3) ++ Spec.byteAt d (i + 2) ++ Spec.byteAt d (i + 1) ++
      Spec.byteAt d i : BitVec 32) := by
  apply BitVec.eq_of_toNat_eq
  simp only [Spec.rd32, toNat_append_add, BitVec.toNat_ofNat]
  have h0 := (Spec.byteAt d i).isLt
  have h1 := (Spec.byteAt d (i + 1)).isLt
  have h2 := (Spec.byteAt d (i + 2)).isLt
  have h3 := (Spec.byteAt d (i + 3)).isLt
  omega

theorem rd32_append16 (d : Bytes) (i : Nat) :
    Spec.rd32 d i = (Spec.rd16 d (i + 2) ++ Spec.rd16 d i : BitVec 32) := by
  apply BitVec.eq_of_toNat_eq
  simp only [Spec.rd32, Spec.rd16, toNat_append_add, BitVec.toNat_ofNat]
  simp only [Nat.add_assoc i, Nat.reduceAdd]
  have h0 := (Spec.byteAt d i).isLt
  have h1 := (Spec.byteAt d (i + 1)).isLt
  have h2 := (Spec.byteAt d (i + 2)).isLt
  have h3 := (Spec.byteAt d (i + 3)).isLt
  omega

theorem rd64_append (d : Bytes) (i : Nat) :
    Spec.rd64 d i = (Spec.rd32 d (i + 4) ++ Spec.rd32 d i : BitVec 64) := by
  apply BitVec.eq_of_toNat_eq
  simp only [Spec.rd64, Spec.rd32, toNat_append_add, BitVec.toNat_ofNat]
  simp only [Nat.add_assoc i, Nat.reduceAdd]
  have h0 := (Spec.byteAt d i).isLt
  have h1 := (Spec.byteAt d (i + 1)).isLt
  have h2 := (Spec.byteAt d (i + 2)).isLt
  have h3 := (Spec.byteAt d (i + 3)).isLt
  have h4 := (Spec.byteAt d (i + 4)).isLt
  have h5 := (Spec.byteAt d (i + 5)).isLt
  have h6 := (Spec.byteAt d (i + 6)).isLt
  have h7 := (Spec.byteAt d (i + 7)).isLt
  omega

theorem rd64_cat (d : Bytes) (i : Nat) :
    Spec.rd64 d i = Spec.cat (Spec.rd32 d (i + 4)) (Spec.rd32 d i) := by
  rw [rd64_append, Spec.cat]; simp

theorem getLsbD_u32le (a b c d : U8) (i : Nat) :
    (u32le a b c d).getLsbD i = bif decide (i < 8) then a.getLsbD i
      else bif decide (i < 16) then b.getLsbD (i - 8)
      else bif decide (i < 24) then c.getLsbD (i - 16) else d.getLsbD (i - 24) := by
  unfold u32le
  rw [BitVec.getLsbD_append, BitVec.getLsbD_append, BitVec.getLsbD_append]
  by_cases h1 : i < 8
  · simp [-BitVec.getLsbD_eq_getElem, h1]
  by_cases h2 : i < 16
  · have e2 : i - 8 < 8 := by omega
    simp [-BitVec.getLsbD_eq_getElem, h1, h2, e2]
  have e2 : ¬ (i - 8 < 8) := by omega
  by_cases h3 : i < 24
  · have e3 : i - 8 - 8 < 8 := by omega
    have e4 : i - 8 - 8 = i - 16 := by omega
    simp [-BitVec.getLsbD_eq_getElem, h1, h2, h3, e2, e3]
    rw [e4]
  · have e3 : ¬ (i - 8 - 8 < 8) := by omega
    have e4 : i - 8 - 8 - 8 = i - 24 := by omega
    simp [-BitVec.getLsbD_eq_getElem, h1, h2, h3, e2]
    rw [if_neg e3, e4]

/-- Scaling by powers of 32 as a shift. -/
theorem shl_scale (a : U16) (s k : Nat) (ha : a.toNat < 2 ^ k) (hs : 5 * s + k ≤ 64) :
    (a.setWidth 64 <<< (5 * s) : U64).toNat = a.toNat * 32 ^ s := by
  have h32 : 32 ^ s = 2 ^ (5 * s) := by rw [Nat.pow_mul]
  have hlt : a.toNat * 2 ^ (5 * s) < 2 ^ 64 := by
    calc a.toNat * 2 ^ (5 * s) < 2 ^ k * 2 ^ (5 * s) :=
          Nat.mul_lt_mul_of_pos_right ha (Nat.two_pow_pos _)
      _ = 2 ^ (5 * s + k) := by rw [← Nat.pow_add, Nat.add_comm]
      _ ≤ 2 ^ 64 := Nat.pow_le_pow_right (by decide) hs
  have ha' : a.toNat < 2 ^ 64 := Nat.lt_of_lt_of_le a.isLt (by decide)
  rw [BitVec.toNat_shiftLeft, BitVec.toNat_setWidth, Nat.shiftLeft_eq, Nat.mod_eq_of_lt ha', h32,
    Nat.mod_eq_of_lt hlt]

end Pcics
