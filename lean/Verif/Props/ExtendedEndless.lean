import Mathlib.Combinatorics.Pigeonhole
import Mathlib.Order.Interval.Finset.Nat
import Verif.Props.ExtendedCapabilities
/- C94: walks over extended capabilities that do not end repeat themselves. -/

namespace Pcics.ExtendedCapabilities

open Pcics Spec

theorem after_ecs' (s : ExtendedCapabilities) (k : Nat) : (s.after k).ecs = s.ecs := by
  induction k generalizing s with
  | zero => rfl
  | succ k ih =>
    rw [ExtendedCapabilities.after, ih]
    unfold ExtendedCapabilities.next
    split
    · rfl
    · split <;> rfl

theorem after_eq (s : ExtendedCapabilities) (i j : Nat)
    (h : (s.after i).next_capability_offset = (s.after j).next_capability_offset) :
    s.after i = s.after j := by
  have hi := after_ecs' s i
  have hj := after_ecs' s j
  generalize s.after i = a at *
  generalize s.after j = b at *
  cases a; cases b
  simp_all

theorem after_repeats (s : ExtendedCapabilities) (i j k : Nat) (hij : i ≤ j)
    (h : s.after i = s.after j) (hk : i ≤ k) : s.item (k + (j - i)) = s.item k := by
  unfold ExtendedCapabilities.item
  have e1 : k + (j - i) = j + (k - i) := by omega
  have e2 : k = i + (k - i) := by omega
  rw [e1, after_add, ← h, ← after_add, ← e2]

theorem chain_end_lt {d : Bytes} {o q : U16} {os : List U16} (hc : Chain d o os q)
    (ho : o.toNat < 0x1000) : q.toNat < 0x1000 := by
  induction hc with
  | stop o => exact ho
  | @step o q os here rest ih => exact ih (capNext_lt d o)

theorem endless_live (d : Bytes) (ht : ¬ (ExtendedCapabilities.new d).Terminates) (k : Nat) :
    0x100 ≤ ((ExtendedCapabilities.new d).after k).next_capability_offset.toNat ∧
      ((ExtendedCapabilities.new d).after k).next_capability_offset.toNat < 0x1000 := by
  rw [ecap_walk_terminates_iff_partial] at ht
  rcases chain_dichotomy d 0x100 k with ⟨os, q, hc, hl⟩ | ⟨os, q, hc, -, hq⟩
  · have hlive : live d q := by
      by_contra hq
      exact ht ⟨os, q, hc, hq⟩
    rw [← hl, after_chain hc (ExtendedCapabilities.new d) rfl rfl]
    exact ⟨hlive.1.1, chain_end_lt hc (by decide)⟩
  · exact absurd ⟨os, q, hc, hq⟩ ht

/-- C94: from call 3841 on at the latest, what the walk over extended capabilities returns repeats
with some period, whatever the space: so every item it will ever return is among its first 3842. -/
theorem ecap_walk_periodic (d : Bytes) :
    ∃ i p, 0 < p ∧ i + p ≤ 3842 ∧
      ∀ k, i ≤ k →
        (ExtendedCapabilities.new d).item (k + p) = (ExtendedCapabilities.new d).item k := by
  by_cases ht : (ExtendedCapabilities.new d).Terminates
  · refine ⟨3841, 1, by omega, by omega, fun k hk => ?_⟩
    rw [ecap_walk_bound_partial d ht k (.inl hk), ecap_walk_bound_partial d ht _ (.inl (by omega))]
  · have hp := endless_live d ht
    generalize ExtendedCapabilities.new d = s at hp
    obtain ⟨i, hi, j, hj, hne, he⟩ := Finset.exists_ne_map_eq_of_card_lt_of_maps_to
      (s := Finset.range 3841) (t := Finset.Icc 256 4095)
      (f := fun k => (s.after k).next_capability_offset.toNat)
      (by simp) (fun k _ => by
        simp only [Finset.coe_Icc, Set.mem_Icc]
        exact ⟨(hp k).1, Nat.le_of_lt_succ (hp k).2⟩)
    simp only [Finset.mem_range] at hi hj
    have he := after_eq s i j (BitVec.eq_of_toNat_eq he)
    rcases Nat.lt_or_gt_of_ne hne with hlt | hlt
    · exact ⟨i, j - i, by omega, by omega, fun k hk => after_repeats s i j k (by omega) he hk⟩
    · exact ⟨j, i - j, by omega, by omega, fun k hk => after_repeats s j i k (by omega) he.symm hk⟩

/-- C94: so nothing is missed by stopping after 3842 calls. -/
theorem ecap_walk_first_calls (d : Bytes) (k : Nat) :
    ∃ j < 3842, (ExtendedCapabilities.new d).item k = (ExtendedCapabilities.new d).item j := by
  obtain ⟨i, p, hp, hip, hr⟩ := ecap_walk_periodic d
  induction k using Nat.strong_induction_on with
  | _ k ih =>
    by_cases hk : k < 3842
    · exact ⟨k, hk, rfl⟩
    · obtain ⟨j, hj, he⟩ := ih (k - p) (by omega)
      refine ⟨j, hj, ?_⟩
      rw [← he, ← hr (k - p) (by omega)]
      congr 1
      omega

theorem item_offset (s : ExtendedCapabilities) (k : Nat) (c : ExtendedCapability)
    (h : s.item k = some (.ok c)) : c.offset = (s.after k).next_capability_offset := by
  unfold ExtendedCapabilities.item ExtendedCapabilities.next at h
  split at h
  · cases h
  · split at h
    · cases h
    · rename_i v o _ hp
      simp only [Option.some.injEq] at h
      subst h
      unfold parseEcap at hp
      dsimp only at hp
      split at hp
      · cases hp
      split at hp
      · split at hp
        · cases hp
        · split at hp
          · simp only [Prod.mk.injEq] at hp
            obtain ⟨hp, -⟩ := hp
            cases hk : decodeKind (s.after k).next_capability_offset _ _ _ with
            | ok x => rw [hk] at hp; cases hp; rfl
            | err e => rw [hk] at hp; cases hp
            | panic => rw [hk] at hp; cases hp
          · cases hp
      · cases hp
      · cases hp

/-- C94: the walk is endless as soon as two calls return an extended capability at the same offset (a
caller can tell by remembering offsets). -/
theorem ecap_walk_offset_twice (d : Bytes) (i j : Nat) (hij : i < j) (c c' : ExtendedCapability)
    (hi : (ExtendedCapabilities.new d).item i = some (.ok c))
    (hj : (ExtendedCapabilities.new d).item j = some (.ok c')) (hp : c.offset = c'.offset) :
    c = c' ∧ ¬ (ExtendedCapabilities.new d).Terminates := by
  generalize ExtendedCapabilities.new d = s at *
  have e := after_eq s i j (by rw [← item_offset s i c hi, ← item_offset s j c' hj, hp])
  have hc : c = c' := by
    unfold ExtendedCapabilities.item at hi hj
    rw [e, hj] at hi
    cases hi; rfl
  refine ⟨hc, ?_⟩
  rintro ⟨n, hn⟩
  have hm : ∀ m, s.item (i + m * (j - i)) = s.item i := by
    intro m
    induction m with
    | zero => simp
    | succ m ih =>
      rw [← ih, Nat.succ_mul, ← Nat.add_assoc]
      exact after_repeats s i j _ (by omega) e (by omega)
  have := hn (i + n * (j - i)) (Nat.le_trans
    (Nat.le_mul_of_pos_right n (by omega)) (Nat.le_add_left _ _))
  rw [hm, hi] at this
  cases this

/-- Two extended capabilities linking to each other. -/
example : (ExtendedCapabilities.new [0, 0, 0x41, 0x10, 0x11, 0, 1, 0x10]).item 3 =
    (ExtendedCapabilities.new [0, 0, 0x41, 0x10, 0x11, 0, 1, 0x10]).item 1 := by decide +kernel

end Pcics.ExtendedCapabilities
