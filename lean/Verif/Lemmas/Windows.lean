import Verif.Lemmas.Header
import Verif.Spec.Windows
/- The addresses of decoded bridge windows as numbers. -/

namespace Pcics.Header
open Spec

theorem toNat_fld {n m : Nat} (w : BitVec n) (lo len : Nat) (h : n = lo + len) (hm : len ≤ m) :
    (fld w lo len : BitVec m).toNat = w.toNat / 2 ^ lo := by
  have hw := w.isLt
  have hlt : w.toNat / 2 ^ lo < 2 ^ len := by
    rw [Nat.div_lt_iff_lt_mul (Nat.two_pow_pos _), ← Nat.pow_add, Nat.add_comm len lo, ← h]; exact hw
  simp only [fld, BitVec.toNat_setWidth, BitVec.extractLsb'_toNat, Nat.shiftRight_eq_div_pow]
  rw [Nat.mod_eq_of_lt hlt, Nat.mod_eq_of_lt (Nat.lt_of_lt_of_le hlt (Nat.pow_le_pow_right (by decide) hm))]

theorem toNat_cat {n m k : Nat} (hi : BitVec n) (lo : BitVec m) (h : k = n + m) :
    (cat hi lo : BitVec k).toNat = hi.toNat * 2 ^ m + lo.toNat := by
  subst h
  simp only [cat, BitVec.setWidth_eq, BitVec.toNat_append]
  rw [← Nat.shiftLeft_add_eq_or_of_lt lo.isLt, Nat.shiftLeft_eq]

theorem toNat_shift {n : Nat} (w : BitVec n) (s : Nat) (h : w.toNat * 2 ^ s < 2 ^ n) :
    (w <<< s).toNat = w.toNat * 2 ^ s := by
  rw [BitVec.toNat_shiftLeft, Nat.shiftLeft_eq, Nat.mod_eq_of_lt h]

theorem io_part (v : U8) : ((fld v 4 4 : U16) <<< 12).toNat = v.toNat / 2 ^ 4 * 2 ^ 12 := by
  have h : (fld v 4 4 : U16).toNat = v.toNat / 2 ^ 4 := toNat_fld v 4 4 rfl (by decide)
  have := v.isLt
  rw [toNat_shift _ _ (by rw [h]; omega), h]

theorem mem_part (v : U16) : ((fld v 4 12 : U32) <<< 20).toNat = v.toNat / 2 ^ 4 * 2 ^ 20 := by
  have h : (fld v 4 12 : U32).toNat = v.toNat / 2 ^ 4 := toNat_fld v 4 12 rfl (by decide)
  have := v.isLt
  rw [toNat_shift _ _ (by rw [h]; omega), h]

theorem cardbus_part (v : U16) : ((fld v 2 14 : U16) <<< 2).toNat = v.toNat / 2 ^ 2 * 2 ^ 2 := by
  have h : (fld v 2 14 : U16).toNat = v.toNat / 2 ^ 2 := toNat_fld v 2 14 rfl (by decide)
  have := v.isLt
  rw [toNat_shift _ _ (by rw [h]; omega), h]

theorem io16_values {base limit : U8} {bu lu b l : U16}
    (h : BridgeIoAddressRange.new base limit bu lu = .IoAddr16 b l) :
    b.toNat = base.toNat / 2 ^ 4 * 2 ^ 12 ∧ l.toNat = limit.toNat / 2 ^ 4 * 2 ^ 12 := by
  rw [BridgeIoAddressRange_layout, BridgeIoAddressRange.spec] at h
  repeat' split at h
  all_goals cases h
  exact ⟨io_part _, io_part _⟩

theorem io32_values {base limit : U8} {bu lu : U16} {b l : U32}
    (h : BridgeIoAddressRange.new base limit bu lu = .IoAddr32 b l) :
    b.toNat = bu.toNat * 2 ^ 16 + base.toNat / 2 ^ 4 * 2 ^ 12 ∧
      l.toNat = lu.toNat * 2 ^ 16 + limit.toNat / 2 ^ 4 * 2 ^ 12 := by
  rw [BridgeIoAddressRange_layout, BridgeIoAddressRange.spec] at h
  repeat' split at h
  all_goals cases h
  rw [toNat_cat _ _ rfl, toNat_cat _ _ rfl, io_part, io_part]
  exact ⟨rfl, rfl⟩

theorem mem32_values {base limit : U16} {bu lu b l : U32}
    (h : BridgePrefetchableMemory.new base limit bu lu = .MemAddr32 b l) :
    b.toNat = base.toNat / 2 ^ 4 * 2 ^ 20 ∧ l.toNat = limit.toNat / 2 ^ 4 * 2 ^ 20 := by
  rw [BridgePrefetchableMemory_layout, BridgePrefetchableMemory.spec] at h
  repeat' split at h
  all_goals simp only [reduceCtorEq, BridgePrefetchableMemory.MemAddr32.injEq] at h
  rw [← h.1, ← h.2]
  exact ⟨mem_part _, mem_part _⟩

theorem mem64_values {base limit : U16} {bu lu : U32} {b l : U64}
    (h : BridgePrefetchableMemory.new base limit bu lu = .MemAddr64 b l) :
    b.toNat = bu.toNat * 2 ^ 32 + base.toNat / 2 ^ 4 * 2 ^ 20 ∧
      l.toNat = lu.toNat * 2 ^ 32 + limit.toNat / 2 ^ 4 * 2 ^ 20 := by
  rw [BridgePrefetchableMemory_layout, BridgePrefetchableMemory.spec] at h
  repeat' split at h
  all_goals simp only [reduceCtorEq, BridgePrefetchableMemory.MemAddr64.injEq] at h
  rw [← h.1, ← h.2, toNat_cat _ _ rfl, toNat_cat _ _ rfl, mem_part, mem_part]
  exact ⟨rfl, rfl⟩

theorem cardbus16_values {bl bu ll lu b l : U16}
    (h : IoAccessAddressRange.ofU16s bl bu ll lu = .Addr16Bit b l) :
    b.toNat = bl.toNat / 2 ^ 2 * 2 ^ 2 ∧ l.toNat = ll.toNat / 2 ^ 2 * 2 ^ 2 := by
  rw [IoAccessAddressRange_layout, IoAccessAddressRange.spec] at h
  simp only [pick] at h
  repeat' split at h
  all_goals cases h
  exact ⟨cardbus_part _, cardbus_part _⟩

theorem cardbus32_values {bl bu ll lu : U16} {b l : U32}
    (h : IoAccessAddressRange.ofU16s bl bu ll lu = .Addr32Bit b l) :
    b.toNat = bu.toNat * 2 ^ 16 + bl.toNat / 2 ^ 2 * 2 ^ 2 ∧
      l.toNat = lu.toNat * 2 ^ 16 + ll.toNat / 2 ^ 2 * 2 ^ 2 := by
  rw [IoAccessAddressRange_layout, IoAccessAddressRange.spec] at h
  simp only [pick] at h
  repeat' split at h
  all_goals cases h
  rw [toNat_cat _ _ rfl, toNat_cat _ _ rfl, cardbus_part, cardbus_part]
  exact ⟨rfl, rfl⟩

/-- Comparing blocks is comparing addresses, with the limit at the end of its block. -/
theorem forwards_iff (s base limit x : Nat) :
    Forwards s base limit x ↔ base * 2 ^ s ≤ x ∧ x ≤ limit * 2 ^ s + (2 ^ s - 1) := by
  unfold Forwards
  have h := Nat.two_pow_pos s
  rw [Nat.le_div_iff_mul_le h, Nat.le_iff_lt_add_one (y := limit), Nat.div_lt_iff_lt_mul h, Nat.succ_mul]
  constructor <;> rintro ⟨a, b⟩ <;> exact ⟨a, by omega⟩

end Pcics.Header
