import Mathlib.Combinatorics.Pigeonhole
import Mathlib.Order.Interval.Finset.Nat
import Verif.Props.Capabilities
/- C94: walks that do not end repeat themselves. -/

namespace Pcics

open Spec

theorem after_data (s : Capabilities) (k : Nat) :
    (s.after k).data = s.data ∧ (s.after k).header = s.header := by
  induction k generalizing s with
  | zero => exact ⟨rfl, rfl⟩
  | succ k ih =>
    rw [Capabilities.after, (ih _).1, (ih _).2]
    unfold Capabilities.next
    split <;> exact ⟨rfl, rfl⟩

theorem after_eq (s : Capabilities) (i j : Nat)
    (h : (s.after i).pointer = (s.after j).pointer) : s.after i = s.after j := by
  have hi := after_data s i
  have hj := after_data s j
  generalize s.after i = a at *
  generalize s.after j = b at *
  cases a; cases b
  simp_all

theorem after_repeats (s : Capabilities) (i j k : Nat) (hij : i ≤ j)
    (h : s.after i = s.after j) (hk : i ≤ k) : s.item (k + (j - i)) = s.item k := by
  unfold Capabilities.item
  have e1 : k + (j - i) = j + (k - i) := by omega
  have e2 : k = i + (k - i) := by omega
  rw [e1, after_add, ← h, ← after_add, ← e2]

theorem terminates_of_low (s : Capabilities) (i : Nat) (h : (s.after i).pointer.toNat < 0x40) :
    s.Terminates := by
  refine ⟨i + 1, fun k hk => ?_⟩
  have e : k = i + 1 + (k - (i + 1)) := by omega
  have hz : (s.after (i + 1)).pointer = 0 := by
    rw [after_add]
    show (s.after i).next.2.pointer = 0
    by_cases h0 : (s.after i).pointer = 0
    · rw [next_zero _ h0]; exact h0
    · rw [next_header _ h0 h]
  unfold Capabilities.item
  rw [e, after_add, after_zero _ hz, next_zero _ hz]

/-- C94: from call 193 on at the latest, what the walk returns repeats with some period, whatever the
region: so every item it will ever return is among its first 194. -/
theorem cap_walk_periodic (d : Bytes) (h : Header.Header) :
    ∃ i p, 0 < p ∧ i + p ≤ 194 ∧
      ∀ k, i ≤ k → (Capabilities.new d h).item (k + p) = (Capabilities.new d h).item k := by
  by_cases ht : (Capabilities.new d h).Terminates
  · refine ⟨193, 1, by omega, by omega, fun k hk => ?_⟩
    rw [cap_walk_bound_partial d h ht k hk, cap_walk_bound_partial d h ht _ (by omega)]
  · generalize Capabilities.new d h = s at ht
    have hp : ∀ i, 0x40 ≤ (s.after i).pointer.toNat := fun i => by
      by_contra hc
      exact ht (terminates_of_low s i (by omega))
    obtain ⟨i, hi, j, hj, hne, he⟩ := Finset.exists_ne_map_eq_of_card_lt_of_maps_to
      (s := Finset.range 193) (t := Finset.Icc 64 255) (f := fun k => (s.after k).pointer.toNat)
      (by simp) (fun k _ => by
        have := (s.after k).pointer.isLt
        simp only [Finset.coe_Icc, Set.mem_Icc]
        exact ⟨hp k, by omega⟩)
    simp only [Finset.mem_range] at hi hj
    have he := after_eq s i j (BitVec.eq_of_toNat_eq he)
    rcases Nat.lt_or_gt_of_ne hne with hlt | hlt
    · exact ⟨i, j - i, by omega, by omega, fun k hk => after_repeats s i j k (by omega) he hk⟩
    · exact ⟨j, i - j, by omega, by omega, fun k hk => after_repeats s j i k (by omega) he.symm hk⟩

/-- C94: so nothing is missed by stopping after 194 calls. -/
theorem cap_walk_first_calls (d : Bytes) (h : Header.Header) (k : Nat) :
    ∃ j < 194, (Capabilities.new d h).item k = (Capabilities.new d h).item j := by
  obtain ⟨i, p, hp, hip, hr⟩ := cap_walk_periodic d h
  induction k using Nat.strong_induction_on with
  | _ k ih =>
    by_cases hk : k < 194
    · exact ⟨k, hk, rfl⟩
    · obtain ⟨j, hj, he⟩ := ih (k - p) (by omega)
      refine ⟨j, hj, ?_⟩
      rw [← he, ← hr (k - p) (by omega)]
      congr 1
      omega

theorem item_pointer (s : Capabilities) (k : Nat) (c : Capability) (h : s.item k = some (.ok c)) :
    c.pointer = (s.after k).pointer ∧ (s.after k).pointer ≠ 0 := by
  unfold Capabilities.item Capabilities.next at h
  split at h
  · rename_i h0
    refine ⟨?_, h0⟩
    simp only [Option.some.injEq] at h
    unfold parseCap at h
    dsimp only at h
    split at h
    · cases h
    · split at h
      · cases hk : decodeKind (s.after k).header (s.after k).pointer _ _ with
        | ok x => rw [hk] at h; cases h; rfl
        | err e => rw [hk] at h; cases h
        | panic => rw [hk] at h; cases h
      · cases h
  · cases h

/-- C94: the walk is endless as soon as two calls return a capability at the same pointer (a caller
can tell by remembering pointers). -/
theorem cap_walk_pointer_twice (d : Bytes) (h : Header.Header) (i j : Nat) (hij : i < j)
    (c c' : Capability) (hi : (Capabilities.new d h).item i = some (.ok c))
    (hj : (Capabilities.new d h).item j = some (.ok c')) (hp : c.pointer = c'.pointer) :
    c = c' ∧ ¬ (Capabilities.new d h).Terminates := by
  generalize Capabilities.new d h = s at *
  have e := after_eq s i j (by
    rw [← (item_pointer s i c hi).1, ← (item_pointer s j c' hj).1, hp])
  have hc : c = c' := by
    unfold Capabilities.item at hi hj
    rw [e, hj] at hi
    cases hi; rfl
  refine ⟨hc, ?_⟩
  rintro ⟨n, hn⟩
  have hm : ∀ m, s.item (i + m * (j - i)) = s.item i := by
    intro m
    induction m with
    | zero => simp
    | succ m ih =>
      rw [← ih, Nat.succ_mul, ← Nat.add_assoc]
      exact after_repeats s i j _ (by omega) e (by omega)
  have := hn (i + n * (j - i)) (Nat.le_trans
    (Nat.le_mul_of_pos_right n (by omega)) (Nat.le_add_left _ _))
  rw [hm, hi] at this
  cases this

/-- Two capabilities linking to each other. -/
example : (Capabilities.new [0, 0x44, 0, 0, 0, 0x40] (sampleHeader 0x40)).item 3 =
    (Capabilities.new [0, 0x44, 0, 0, 0, 0x40] (sampleHeader 0x40)).item 1 := by decide +kernel

end Pcics
