import Verif.Lemmas.Reads
import Verif.Spec.Ext.ResizableBar
import Verif.Lemmas.Tactics
import Verif.Lemmas.Bv
import Verif.Lemmas.Iter
/- Properties of src/extended_capabilities/resizable_bar.rs -/

namespace Pcics.ResizableBar
open Spec

/-- C50: every field of `ResizableBarControl` is at its bit position. -/
theorem ResizableBarControl_layout (w : U32) :
    ResizableBarControl.ofU32 w = ResizableBarControl.spec w := by
  bits_simp [ResizableBarControl.ofU32, ResizableBarControl.spec]

theorem numBars_eq (d : Bytes) (i : Nat) :
    ((runBits (rd64 d i) do
      skip 37
      let num_bars ← bits 3
      skip 24
      return num_bars : U64)).toNat = (fld (rd32 d (i + 4)) 5 3 : U8).toNat := by
  have e : ((runBits (rd64 d i) do
      skip 37
      let num_bars ← bits 3
      skip 24
      return num_bars : U64)) = (fld (rd64 d i) 37 3 : U64) := by
    bits_simp []
  have e2 : (fld (rd64 d i) 37 3 : U64) = (fld (rd32 d (i + 4)) 5 3 : U8).setWidth 64 := by
    rw [rd64_cat]
    bv_bits []
  rw [e, e2, BitVec.toNat_setWidth]
  exact Nat.mod_eq_of_lt (Nat.lt_of_lt_of_le (BitVec.isLt _) (by decide))

/-- C50: Resizable BAR parses iff the first control register is there and announces 1 to 6 entries
that are all there. -/
theorem ResizableBar_bytes (d : Bytes) :
    ResizableBar.ofBytes d =
      if d.length < 12 then .err .FirstEntry
      else if numBars d = 0 ∨ 6 < numBars d then .err (.NumberOfResizableBars (numBars d))
      else if d.length < 4 + 8 * numBars d then .err .ShortData
      else .ok ⟨(d.drop 4).take (8 * numBars d)⟩ := by
  by_cases h : d.length < 12
  · rw [if_pos h]
    by_cases h4 : 4 ≤ d.length
    · bytes_len [ResizableBar.ofBytes, Option.getD_some]
    · bytes_len [ResizableBar.ofBytes, Option.getD_none]
      rfl
  · rw [if_neg h]
    bytes_len [ResizableBar.ofBytes, Option.getD_some, numBars_eq]
    change (if 1 ≤ numBars d ∧ numBars d ≤ 6 then _ else _) = _
    by_cases hn : numBars d = 0 ∨ 6 < numBars d
    · rw [if_neg (by omega), if_pos hn]; rfl
    · rw [if_pos (by omega), if_neg hn]
      have e : (fld (rd32 d 8) 5 3 : U8).toNat = numBars d := rfl
      by_cases hl : d.length < 4 + 8 * numBars d
      · rw [e, if_neg (by omega), if_pos hl]
      · rw [e, if_pos (by omega), if_neg hl]
        congr 3
        omega

theorem rb_next (c : Bytes) (h : 8 ≤ c.length) :
    ResizableBar.next ⟨c⟩ = some (.spec (0 :: 0 :: 0 :: 0 :: c) 0, ⟨c.drop 8⟩) := by
  have hne : c ≠ [] := by rintro rfl; simp at h
  simp only [ResizableBar.next, chunk_ne hne, Option.bind_eq_bind, Option.bind_some]
  bytes_len [ResizableBarControl_layout, ResizableBarCapability.ofU32, ResizableBarEntry.spec]
  rfl

theorem rb_take (k n : Nat) (c : Bytes) (h : c.length = 8 * n) :
    takeIter ResizableBar.next k ⟨c⟩ =
      ((List.range n).map (ResizableBarEntry.spec (0 :: 0 :: 0 :: 0 :: c))).take k := by
  induction k generalizing n c with
  | zero => simp [takeIter]
  | succ k ih =>
    cases n with
    | zero =>
      have : c = [] := by simpa using h
      subst this
      rfl
    | succ n =>
      rw [takeIter, rb_next c (by omega)]
      simp only
      rw [ih n (c.drop 8) (by simp only [List.length_drop]; omega), Nat.add_comm n 1, range_add_map]
      simp only [List.range_one, List.map_cons, List.map_nil, List.cons_append, List.nil_append,
        List.take_succ_cons]
      congr 2
      apply List.map_congr_left
      intro i _
      have e : ∀ j, rd32 (0 :: 0 :: 0 :: 0 :: c.drop 8) (4 + j) =
          rd32 (0 :: 0 :: 0 :: 0 :: c) (12 + j) := by
        intro j
        have a1 : (0 :: 0 :: 0 :: 0 :: c.drop 8 : Bytes).drop 4 = c.drop 8 := rfl
        have a2 : (0 :: 0 :: 0 :: 0 :: c : Bytes).drop 12 = c.drop 8 := rfl
        rw [← rd32_drop, ← rd32_drop, a1, a2]
      simp only [ResizableBarEntry.spec]
      rw [e, show 8 + 8 * i = 4 + (4 + 8 * i) by omega, e]
      congr 3 <;> omega

/-- C50: iterating a parsed Resizable BAR capability yields exactly the announced entries, in order,
each from its own registers. -/
theorem ResizableBar_items (d : Bytes) (rb : ResizableBar) (h : ResizableBar.ofBytes d = .ok rb)
    (k : Nat) :
    takeIter ResizableBar.next k rb =
      ((List.range (numBars d)).map (ResizableBarEntry.spec d)).take k := by
  rw [ResizableBar_bytes] at h
  split at h
  · cases h
  split at h
  · cases h
  split at h
  · cases h
  rename_i h12 hn hl
  cases h
  rw [rb_take k (numBars d) _ (by simp only [List.length_take, List.length_drop]; omega)]
  congr 1
  apply List.map_congr_left
  intro i hi
  have := List.mem_range.1 hi
  have e : ∀ j, j + 3 < 8 * numBars d →
      rd32 (0 :: 0 :: 0 :: 0 :: (d.drop 4).take (8 * numBars d)) (4 + j) = rd32 d (4 + j) := by
    intro j hj
    have a1 : (0 :: 0 :: 0 :: 0 :: (d.drop 4).take (8 * numBars d) : Bytes).drop 4 =
      (d.drop 4).take (8 * numBars d) := rfl
    rw [← rd32_drop, a1, rd32_take _ _ _ hj, rd32_drop]
  simp only [ResizableBarEntry.spec]
  rw [e _ (by omega), show 8 + 8 * i = 4 + (4 + 8 * i) by omega, e _ (by omega)]

theorem and_one_shl {n : Nat} (w : BitVec n) (j : Nat) (h : j < n) :
    ((w &&& (1#n <<< j)) != 0#n) = w.getLsbD j := by
  have h1 : (1#n <<< j).getLsbD j = true := by
    simp [-BitVec.getLsbD_eq_getElem, h]; omega
  cases hb : w.getLsbD j
  · have : w &&& (1#n <<< j) = 0#n := by
      apply BitVec.eq_of_getLsbD_eq
      intro i hi
      by_cases hij : i = j
      · subst hij; simp [-BitVec.getLsbD_eq_getElem, BitVec.getLsbD_and, hb]
      · simp [-BitVec.getLsbD_eq_getElem, BitVec.getLsbD_and, BitVec.getLsbD_shiftLeft, hi]; omega
    simp [this]
  · rw [bne_iff_ne]
    intro hc
    have := congrArg (·.getLsbD j) hc
    simp [-BitVec.getLsbD_eq_getElem, BitVec.getLsbD_and, hb, h1] at this

/-- C50: support of BAR size 2^p is bit p - 16 of the capability register for p = 20..47 and bit
p - 32 of the control register for p = 48..63. -/
theorem ResizableBar_power (d : Bytes) (i p : Nat) :
    (ResizableBarEntry.spec d i).is_function_supports_power_of_two p =
      if 20 ≤ p ∧ p ≤ 47 then flag (rd32 d (4 + 8 * i)) (p - 16)
      else if 48 ≤ p ∧ p ≤ 63 then flag (rd32 d (8 + 8 * i)) (p - 32)
      else false := by
  unfold ResizableBarEntry.is_function_supports_power_of_two
  split
  · exact and_one_shl _ _ (by omega)
  split
  · refine (and_one_shl _ _ (by omega)).trans ?_
    simp only [ResizableBarEntry.spec, ResizableBarControl.spec, getLsbD_fld, flag]
    rw [decide_eq_true (by omega), Bool.true_and, Bool.true_and]
    congr 1; omega
  · rfl

/-- C50: the table of size names lists exactly the powers of two a BAR can have, 2^20 to 2^63
bytes, each written in the largest binary unit that does not exceed it. -/
theorem ResizableBar_size_names :
    ResizableBarEntry.BAR_SIZES.length = 63 - 20 + 1 ∧
      ∀ n, n < 44 → ∃ unit e,
        (unit, e) ∈ [("MB", 20), ("GB", 30), ("TB", 40), ("PB", 50), ("EB", 60)] ∧
        e ≤ n + 20 ∧ n + 20 < e + 10 ∧
        ResizableBarEntry.BAR_SIZES[n]? = some (toString (2 ^ (n + 20) / 2 ^ e) ++ unit) := by
  refine ⟨rfl, fun n hn => ?_⟩
  have h : ∀ n, n < 44 → ResizableBarEntry.BAR_SIZES[n]? =
      some (toString (2 ^ (n + 20) / 2 ^ (10 * (n / 10) + 20)) ++
        (["MB", "GB", "TB", "PB", "EB"][n / 10]?.getD "")) := by decide +kernel
  refine ⟨_, _, ?_, ?_, ?_, h n hn⟩
  · have : n / 10 < 5 := by omega
    generalize n / 10 = q at this ⊢
    interval_cases q <;> decide
  · omega
  · omega

example : (ResizableBar.ofBytes [0x15, 0, 1, 0, 0x10, 0, 0, 0, 0x22, 0x01, 0, 0]).map'
    (takeIter ResizableBar.next 5) = .ok [⟨⟨0x10⟩, ⟨2, 1, 1, 0⟩⟩] := by decide +kernel

/-! ### C76 -/

/-- C76: `ResizableBarControl` registers decode to the same value exactly when they agree in bits
0-2, 5-13, 16-31. -/
theorem ResizableBarControl_reads (a b : U32) :
    ResizableBarControl.ofU32 a = ResizableBarControl.ofU32 b ↔
      a &&& 0xffff3fe7#32 = b &&& 0xffff3fe7#32 := by
  reads [ResizableBarControl_layout, ResizableBarControl.spec, ResizableBarControl.mk.injEq]

/-- A reserved bit makes no difference to `ResizableBarControl`, a defined one does. -/
example : ResizableBarControl.ofU32 0x3fc1ea36 = ResizableBarControl.ofU32 0x3fc16a36 ∧
    ResizableBarControl.ofU32 0x3fc1ea36 ≠ ResizableBarControl.ofU32 0x3fc5ea36 :=
  ⟨(ResizableBarControl_reads _ _).2 (by decide), fun h => absurd ((ResizableBarControl_reads _ _).1 h) (by decide)⟩

end Pcics.ResizableBar
