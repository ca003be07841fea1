import Verif.Props.Calls
import Verif.Spec.AnyPacked

/-! Arbitration tables of any entry size: `new` of both tables is public and takes any size. -/

namespace Pcics
open Spec

private theorem cycle_iter {σ α : Type} (next : σ → Option (α × σ)) (mk : U8 → α)
    (st : Bytes → Nat → U8 → σ) (size n : Nat) (hn : 0 < n) (h0 : n * size % 8 = 0)
    (e1 : ∀ b, next (st [] 0 b) = none)
    (e2 : ∀ x r b, next (st (x :: r) 0 b) = some (mk (fld x 0 size), st r (size % 8) x))
    (e3 : ∀ d j b, 0 < j → j < n →
      next (st d (j * size % 8) b) = some (mk (fld b (j * size % 8) size), st d ((j + 1) * size % 8) b))
    (k : Nat) (d : Bytes) (j : Nat) (b : U8) (hj0 : 0 < j) (hj : j ≤ n) :
    takeIter next k (st d (j * size % 8) b) =
      (((List.range' j (n - j)).map fun i => mk (fld b (i * size % 8) size)) ++
        d.flatMap fun x => (List.range n).map fun i => mk (fld x (i * size % 8) size)).take k := by
  induction k generalizing d j b with
  | zero => simp [takeIter]
  | succ k ih =>
    by_cases hjn : j = n
    · subst hjn
      rw [h0, Nat.sub_self]
      cases d with
      | nil => simp [takeIter, e1]
      | cons x r =>
        have h := ih r 1 x (by omega) hn
        rw [Nat.one_mul] at h
        have hr : List.range j = 0 :: List.range' 1 (j - 1) := by
          obtain ⟨m, rfl⟩ : ∃ m, j = m + 1 := ⟨j - 1, by omega⟩
          rw [List.range_eq_range', List.range'_succ]; rfl
        simp only [takeIter, e2, h, List.range'_zero, List.map_nil, List.nil_append,
          List.flatMap_cons]
        rw [hr]
        simp
    · have hlt : j < n := by omega
      have hr : List.range' j (n - j) = j :: List.range' (j + 1) (n - (j + 1)) := by
        rw [show n - j = (n - (j + 1)) + 1 by omega, List.range'_succ]
      rw [hr]
      simp only [takeIter, e3 d j b hj0 hlt, ih d (j + 1) b (by omega) (by omega)]
      simp

private theorem entry_any (size shift : Nat) (b : U8) (h : size < 8) (hs : shift < 8) :
    (b &&& (~~~(0xff#8 <<< size)) <<< shift) >>> shift = (fld b shift size : U8) := by
  have : ∀ size < 8, ∀ shift < 8, ∀ b : U8,
      (b &&& (~~~(0xff#8 <<< size)) <<< shift) >>> shift = (fld b shift size : U8) := by
    decide +kernel
  exact this size h shift hs b

private theorem cycle (size : Nat) (h : size < 8) :
    0 < 8 / Nat.gcd size 8 ∧ 8 / Nat.gcd size 8 * size % 8 = 0 ∧
    ∀ j, 0 < j → j < 8 / Nat.gcd size 8 → j * size % 8 ≠ 0 := by
  have : ∀ size < 8, 0 < 8 / Nat.gcd size 8 ∧ 8 / Nat.gcd size 8 ≤ 8 ∧
      8 / Nat.gcd size 8 * size % 8 = 0 ∧
      ∀ j < 8, 0 < j → j < 8 / Nat.gcd size 8 → j * size % 8 ≠ 0 := by decide +kernel
  obtain ⟨a, b, c, d⟩ := this size h
  exact ⟨a, c, fun j h0 hj => d j (by omega) h0 hj⟩

private theorem readings_eight (t : Bytes) : t.flatMap (readings 8) = t := by
  have : ∀ b : U8, readings 8 b = [b] := by decide +kernel
  induction t with
  | nil => rfl
  | cons b t ih => rw [List.flatMap_cons, this, ih]; rfl

theorem port_table_items_any (t : Bytes) (size : Nat) (hs : size ≤ 8) (k : Nat) :
    takeIter VirtualChannel.PortArbitrationTable.next k (.new t size) =
      ((t.flatMap (readings size)).map .mk).take k := by
  by_cases h8 : size = 8
  · subst h8
    rw [readings_eight]
    exact bytes_iter VirtualChannel.PortArbitrationTable.next .mk
      (fun d => ⟨d, 8, 0, 0⟩) rfl (fun _ _ => rfl) k t
  · have hlt : size < 8 := by omega
    obtain ⟨hn, h0, hne⟩ := cycle size hlt
    have := cycle_iter VirtualChannel.PortArbitrationTable.next .mk (fun d s b => ⟨d, size, s, b⟩)
      size (8 / Nat.gcd size 8) hn h0 ?_ ?_ ?_ k t (8 / Nat.gcd size 8) 0 hn (Nat.le_refl _)
    · rw [h0, Nat.sub_self] at this
      simp only [readings, List.map_flatMap, List.map_map, Function.comp_def]
      simpa [VirtualChannel.PortArbitrationTable.new] using this
    · intro b
      simp [VirtualChannel.PortArbitrationTable.next, h8]
    · intro x r b
      have := entry_any size 0 x hlt (by omega)
      simp only [VirtualChannel.PortArbitrationTable.next, h8, if_false, if_true,
        Option.bind_eq_bind, Option.bind_some, this, Nat.zero_add]
    · intro d j b hj0 hj
      have := entry_any size (j * size % 8) b hlt (Nat.mod_lt _ (by decide))
      simp only [VirtualChannel.PortArbitrationTable.next, h8, hne j hj0 hj, if_false,
        Option.bind_eq_bind, Option.bind_some, this, Nat.add_mul, Nat.one_mul, Nat.mod_add_mod]

theorem function_table_items_any (t : Bytes) (size : Nat) (hs : size ≤ 8) (k : Nat) :
    takeIter MultifunctionVirtualChannel.FunctionArbitrationTable.next k (.new t size) =
      ((t.flatMap (readings size)).map .mk).take k := by
  by_cases h8 : size = 8
  · subst h8
    rw [readings_eight]
    exact bytes_iter MultifunctionVirtualChannel.FunctionArbitrationTable.next .mk
      (fun d => ⟨d, 8, 0, 0⟩) rfl (fun _ _ => rfl) k t
  · have hlt : size < 8 := by omega
    obtain ⟨hn, h0, hne⟩ := cycle size hlt
    have := cycle_iter MultifunctionVirtualChannel.FunctionArbitrationTable.next .mk
      (fun d s b => ⟨d, size, s, b⟩)
      size (8 / Nat.gcd size 8) hn h0 ?_ ?_ ?_ k t (8 / Nat.gcd size 8) 0 hn (Nat.le_refl _)
    · rw [h0, Nat.sub_self] at this
      simp only [readings, List.map_flatMap, List.map_map, Function.comp_def]
      simpa [MultifunctionVirtualChannel.FunctionArbitrationTable.new] using this
    · intro b
      simp [MultifunctionVirtualChannel.FunctionArbitrationTable.next, h8]
    · intro x r b
      have := entry_any size 0 x hlt (by omega)
      simp only [MultifunctionVirtualChannel.FunctionArbitrationTable.next, h8, if_false, if_true,
        Option.bind_eq_bind, Option.bind_some, this, Nat.zero_add]
    · intro d j b hj0 hj
      have := entry_any size (j * size % 8) b hlt (Nat.mod_lt _ (by decide))
      simp only [MultifunctionVirtualChannel.FunctionArbitrationTable.next, h8, hne j hj0 hj,
        if_false, Option.bind_eq_bind, Option.bind_some, this, Nat.add_mul, Nat.one_mul,
        Nat.mod_add_mod]

/-- C97: call `k` on a new port arbitration table of any entry size up to 8 bits, hand-made ones
included; larger sizes panic (C70).  An entry size that does not divide 8 reads the same byte several
times and entries are never put together from two bytes. -/
theorem port_table_calls_any (t : Bytes) (size : Nat) (hs : size ≤ 8) (k : Nat) :
    nthCall VirtualChannel.PortArbitrationTable.step k (.new t size) =
      ((t.flatMap (readings size)).map .mk)[k]? :=
  nthCall_of_take PortArbitrationTable.step_next port_table_fused _ _
    (port_table_items_any t size hs) k

/-- C97: the same for function arbitration tables. -/
theorem function_table_calls_any (t : Bytes) (size : Nat) (hs : size ≤ 8) (k : Nat) :
    nthCall MultifunctionVirtualChannel.FunctionArbitrationTable.step k (.new t size) =
      ((t.flatMap (readings size)).map .mk)[k]? :=
  nthCall_of_take FunctionArbitrationTable.step_next function_table_fused _ _
    (function_table_items_any t size hs) k

/-- Entries of 3 bits: eight of them from one byte, the third one cut. -/
example : readings 3 0b11010110 = [6, 2, 3, 3, 5, 1, 5, 6] ∧
    nthCall VirtualChannel.PortArbitrationTable.step 2 (.new [0b11010110, 0xff] 3) = some ⟨3⟩ ∧
    nthCall MultifunctionVirtualChannel.FunctionArbitrationTable.step 8 (.new [0b11010110, 0xff] 3) =
      some ⟨7⟩ ∧ readings 0 0xff = [0] := by decide +kernel

end Pcics
