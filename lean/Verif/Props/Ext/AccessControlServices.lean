import Verif.Lemmas.Reads
import Verif.Spec.Ext.AccessControlServices
import Verif.Lemmas.Tactics
import Verif.Lemmas.Bv
import Verif.Lemmas.Iter
/- Properties of src/extended_capabilities/access_control_services.rs -/

namespace Pcics.AccessControlServices
open Spec

/-- C47 (the code violates it): bit 15, the top bit of the vector size, is ignored. -/
theorem AcsCapability_layout_fails : ¬ ∀ w, AcsCapability.ofU16 w = AcsCapability.spec w := by
  intro h
  exact absurd (congrArg (·.egress_control_vector_size) (h 0x8000)) (by decide +kernel)

/-- C47: every field of `AcsCapability` is at its bit position if the vector size is below 128. -/
theorem AcsCapability_layout_partial (w : U16) (h : flag w 15 = false) :
    AcsCapability.ofU16 w = AcsCapability.spec w := by
  have e : (fld w 8 8 : U8) = fld w 8 7 := by
    have h' : w.getLsbD 15 = false := h
    bv_bits [h']
  rw [AcsCapability.spec, e]
  bits_simp [AcsCapability.ofU16]

example : flag (0x2061 : U16) 15 = false := by decide

/-- C47: the capability register, exactly: only the top bit of the vector size is ignored. -/
theorem AcsCapability_read (w : U16) : AcsCapability.ofU16 w = AcsCapability.read w := by
  bits_simp [AcsCapability.ofU16, AcsCapability.read, AcsCapability.spec]

/-- C47: every field of `AcsControl` is at its bit position. -/
theorem AcsControl_layout (w : U16) :
    AcsControl.ofU16 w = AcsControl.spec w := by
  bits_simp [AcsControl.ofU16, AcsControl.spec]

/-- C47: ACS needs 4 bytes; what follows is kept for the egress control vector. -/
theorem AccessControlServices_bytes (d : Bytes) :
    AccessControlServices.ofBytes d =
      if 4 ≤ d.length then .ok {
        data := d.drop 4
        acs_capability := .read (rd16 d 0)
        acs_control := .spec (rd16 d 2) }
      else .err ⟨"Access Control Services", 4⟩ := by
  by_cases h : 4 ≤ d.length <;> bytes_len [AccessControlServices.ofBytes, AcsControl_layout,
    AcsCapability_read]

/-! The iterator -/

/-- All bits of the bytes `c`, in dwords. -/
def allBits (c : Bytes) : List Bool :=
  if h : c = [] then [] else (List.range 32).map (flag (rd32 c 0)) ++ allBits (c.drop 4)
termination_by c.length
decreasing_by
  have := List.length_pos_iff.2 h
  simp only [List.length_drop]; omega

theorem allBits_eq (c : Bytes) :
    allBits c = (List.range (32 * ((c.length + 3) / 4))).map (vectorBit c) := by
  induction hn : c.length using Nat.strongRecOn generalizing c with
  | _ n ih =>
    subst hn
    rw [allBits]
    by_cases h : c = []
    · subst h; rfl
    · have hp := List.length_pos_iff.2 h
      rw [dif_neg h, ih (c.drop 4).length (by simp only [List.length_drop]; omega) _ rfl]
      have e : 32 * ((c.length + 3) / 4) = 32 + 32 * (((c.drop 4).length + 3) / 4) := by
        simp only [List.length_drop]; omega
      rw [e, range_add_map]
      refine congrArg₂ (· ++ ·) ?_ ?_
      · apply List.map_congr_left
        intro i hi
        have := List.mem_range.1 hi
        simp only [vectorBit, Nat.div_eq_of_lt this, Nat.mod_eq_of_lt this, Nat.mul_zero]
      · apply List.map_congr_left
        intro i _
        simp only [vectorBit, rd32_drop]
        have e1 : 4 * ((32 + i) / 32) = 4 + 4 * (i / 32) := by omega
        have e2 : (32 + i) % 32 = i % 32 := by omega
        rw [e1, e2]

theorem chunkWord_eq (c : Bytes) : chunkWord (c.take 4) = rd32 c 0 := by
  rw [← rd32_take c 4 0 (by decide)]
  generalize c.take 4 = t
  rw [rd32_append]
  rfl

theorem mask_rot (j : Nat) (h : j < 32) :
    ((1 : U32) <<< j).rotateLeft 1 = (1 : U32) <<< ((j + 1) % 32) := by
  interval_cases j <;> decide

theorem mask_one (j : Nat) (h : j < 32) : ((1 : U32) <<< j = 1) ↔ j = 0 := by
  interval_cases j <;> decide

theorem mask_bit (w : U32) (j : Nat) (h : j < 32) : ((w &&& (1 : U32) <<< j) != 0) = flag w j := by
  have e : (w &&& (1 : U32) <<< j) = if w.getLsbD j then (1 : U32) <<< j else 0 := by
    apply BitVec.eq_of_getLsbD_eq
    intro i hi
    by_cases hij : i = j
    · subst hij
      cases hb : w.getLsbD i <;> simp [-BitVec.getLsbD_eq_getElem, hb, hi]
    · cases hb : w.getLsbD j <;>
        simp [-BitVec.getLsbD_eq_getElem, BitVec.getLsbD_and, BitVec.getLsbD_shiftLeft, hi] <;> omega
  have hne : (1 : U32) <<< j ≠ 0 := by interval_cases j <;> decide
  rw [e, flag]
  cases w.getLsbD j
  · rfl
  · simpa using hne

/-- What an iterator state at bit `j` of its dword still has to yield. -/
def denote (s : EgressControlVectors) (j : Nat) : List Bool :=
  ((if j = 0 then [] else ((List.range 32).map (flag s.dword)).drop j) ++ allBits s.chunks).take s.size

theorem drop_bits (w : U32) (j : Nat) (h : j < 32) :
    ((List.range 32).map (flag w)).drop j =
      flag w j :: ((List.range 32).map (flag w)).drop (j + 1) := by
  rw [List.drop_eq_getElem_cons (by simpa using h)]
  simp

theorem ecv_take (k : Nat) (s : EgressControlVectors) (j : Nat) (hj : j < 32)
    (hm : s.mask = (1 : U32) <<< j) :
    takeIter EgressControlVectors.next k s = (denote s j).take k := by
  induction k generalizing s j with
  | zero => simp [takeIter]
  | succ k ih =>
    obtain ⟨c, w, m, n⟩ := s
    simp only at hm
    subst hm
    cases n with
    | zero => simp [takeIter, EgressControlVectors.next, denote]
    | succ n =>
      have step : ∀ (c' : Bytes) (w' : U32), EgressControlVectors.next ⟨c, w, (1 : U32) <<< j, n + 1⟩ =
            some (flag w' j, ⟨c', w', (1 : U32) <<< ((j + 1) % 32), n⟩) →
          (if j = 0 then [] else ((List.range 32).map (flag w)).drop j) ++ allBits c =
            ((List.range 32).map (flag w')).drop j ++ allBits c' →
          takeIter EgressControlVectors.next (k + 1) ⟨c, w, (1 : U32) <<< j, n + 1⟩ =
          (denote ⟨c, w, (1 : U32) <<< j, n + 1⟩ j).take (k + 1) := by
        intro c' w' hnext hl
        rw [takeIter, hnext]
        simp only
        rw [ih _ ((j + 1) % 32) (Nat.mod_lt _ (by decide)) rfl]
        simp only [denote]
        rw [hl, drop_bits w' j hj, List.cons_append, List.take_succ_cons, List.take_succ_cons]
        congr 3
        by_cases h31 : j = 31
        · subst h31; rfl
        · rw [Nat.mod_eq_of_lt (by omega), if_neg (by omega)]
      by_cases h0 : j = 0
      · subst h0
        by_cases hc : c = []
        · subst hc
          simp [takeIter, EgressControlVectors.next, chunk_nil, denote, allBits]
        · apply step (c.drop 4) (rd32 c 0)
          · have h1 : (1 : U32) <<< 0 = 1 := by decide
            rw [EgressControlVectors.next, if_neg (Nat.succ_ne_zero n), if_pos h1]
            simp only [chunk_ne hc, Option.bind_eq_bind, Option.bind_some, chunkWord_eq,
              mask_bit _ 0 hj, mask_rot 0 hj, Nat.add_sub_cancel]
          · rw [allBits, dif_neg hc]; simp
      · apply step c w
        · rw [EgressControlVectors.next, if_neg (Nat.succ_ne_zero n),
            if_neg (fun h => h0 ((mask_one j hj).1 h))]
          simp only [Option.bind_eq_bind, Option.bind_some, mask_bit _ j hj, mask_rot j hj,
            Nat.add_sub_cancel]
        · rw [if_neg h0]

/-- C47: over any data the iterator yields the bits of its dwords in order (missing bytes of the
last dword are 0), at most `size` of them, then ends. -/
theorem EgressControlVectors_items (d : Bytes) (size k : Nat) :
    takeIter EgressControlVectors.next k (.new d size) =
      ((List.range (min size (32 * ((d.length + 3) / 4)))).map (vectorBit d)).take k := by
  rw [ecv_take k _ 0 (by decide) rfl]
  simp only [denote, EgressControlVectors.new, if_true, List.nil_append, allBits_eq]
  rw [← List.map_take, List.take_range]

/-- C47: exactly the bits of the vector, if its size is a multiple of 32 and the data is complete. -/
theorem egress_control_vectors_partial (s : AccessControlServices) (k : Nat)
    (h32 : s.acs_capability.egress_control_vector_size.toNat % 32 = 0)
    (hd : s.acs_capability.egress_control_vector_size.toNat / 8 ≤ s.data.length) :
    takeIter EgressControlVectors.next k s.egress_control_vectors =
      ((List.range s.acs_capability.egress_control_vector_size.toNat).map
        (vectorBit s.data)).take k := by
  generalize hn : s.acs_capability.egress_control_vector_size.toNat = n at *
  simp only [AccessControlServices.egress_control_vectors, hn]
  have he : n / 32 * 4 ≤ s.data.length := by omega
  rw [getTo, if_pos he, Option.getD_some, EgressControlVectors_items]
  have hl : (s.data.take (n / 32 * 4)).length = n / 32 * 4 := by
    rw [List.length_take]; omega
  have hmin : min n (32 * ((n / 32 * 4 + 3) / 4)) = n := by omega
  rw [hl, hmin]
  congr 1
  apply List.map_congr_left
  intro i hi
  have := List.mem_range.1 hi
  rw [vectorBit, vectorBit, rd32_take _ _ _ (by omega)]

/-- C47 (the code violates it): for any size, only the complete dwords of the vector are yielded:
`size / 32 * 32` bits instead of `size`. -/
theorem egress_control_vectors_short (s : AccessControlServices) (k : Nat)
    (hd : (s.acs_capability.egress_control_vector_size.toNat + 31) / 32 * 4 ≤ s.data.length) :
    takeIter EgressControlVectors.next k s.egress_control_vectors =
      ((List.range (s.acs_capability.egress_control_vector_size.toNat / 32 * 32)).map
        (vectorBit s.data)).take k := by
  generalize hn : s.acs_capability.egress_control_vector_size.toNat = n at *
  simp only [AccessControlServices.egress_control_vectors, hn]
  have he : n / 32 * 4 ≤ s.data.length := by omega
  rw [getTo, if_pos he, Option.getD_some, EgressControlVectors_items]
  have hl : (s.data.take (n / 32 * 4)).length = n / 32 * 4 := by
    rw [List.length_take]; omega
  have hmin : min n (32 * ((n / 32 * 4 + 3) / 4)) = n / 32 * 32 := by omega
  rw [hl, hmin]
  congr 1
  apply List.map_congr_left
  intro i hi
  have := List.mem_range.1 hi
  rw [vectorBit, vectorBit, rd32_take _ _ _ (by omega)]

/-- C47 (the code violates it): and what is yielded in every case: the complete dwords if they are all
there, otherwise nothing. -/
theorem egress_control_vectors_exact (s : AccessControlServices) (k : Nat) :
    takeIter EgressControlVectors.next k s.egress_control_vectors =
      if s.acs_capability.egress_control_vector_size.toNat / 32 * 4 ≤ s.data.length then
        ((List.range (s.acs_capability.egress_control_vector_size.toNat / 32 * 32)).map
          (vectorBit s.data)).take k
      else [] := by
  generalize hn : s.acs_capability.egress_control_vector_size.toNat = n at *
  simp only [AccessControlServices.egress_control_vectors, hn]
  by_cases he : n / 32 * 4 ≤ s.data.length
  · rw [getTo, if_pos he, if_pos he, Option.getD_some, EgressControlVectors_items]
    have hl : (s.data.take (n / 32 * 4)).length = n / 32 * 4 := by
      rw [List.length_take]; omega
    have hmin : min n (32 * ((n / 32 * 4 + 3) / 4)) = n / 32 * 32 := by omega
    rw [hl, hmin]
    congr 1
    apply List.map_congr_left
    intro i hi
    have := List.mem_range.1 hi
    rw [vectorBit, vectorBit, rd32_take _ _ _ (by omega)]
  · rw [getTo, if_neg he, if_neg he, Option.getD_none, EgressControlVectors_items]
    simp

/-- C47 (the code violates it): an 8-bit vector, complete in the data, gives no bits at all. -/
theorem egress_control_vectors_fails :
    ∃ d s, AccessControlServices.ofBytes d = .ok s ∧
      s.acs_capability.egress_control_vector_size = 8 ∧ s.data.length = 4 ∧
      ∀ k, takeIter EgressControlVectors.next k s.egress_control_vectors = [] := by
  refine ⟨[0x20, 0x08, 0, 0, 0xff, 0, 0, 0], _, AccessControlServices_bytes _, ?_, ?_, ?_⟩
  · decide +kernel
  · decide +kernel
  · intro k
    rw [egress_control_vectors_short _ k (by decide +kernel)]
    have : (AcsCapability.read (rd16 [0x20, 0x08, 0, 0, 0xff, 0, 0, 0]
      0)).egress_control_vector_size.toNat / 32 * 32 = 0 := by decide +kernel
    simp only [this, List.range_zero, List.map_nil, List.take_nil]

example : takeIter EgressControlVectors.next 100 (AccessControlServices.egress_control_vectors
    ⟨[0x05, 0, 0, 0x80], .ofU16 0x2020, .ofU16 0⟩) =
    [true, false, true] ++ List.replicate 28 false ++ [true] := by decide +kernel

/-! ### C76 -/

/-- C76: `AcsControl` registers decode to the same value exactly when they agree in bits 0-6. -/
theorem AcsControl_reads (a b : U16) :
    AcsControl.ofU16 a = AcsControl.ofU16 b ↔
      a &&& 0x007f#16 = b &&& 0x007f#16 := by
  reads [AcsControl_layout, AcsControl.spec, AcsControl.mk.injEq]

/-- A reserved bit makes no difference to `AcsControl`, a defined one does. -/
example : AcsControl.ofU16 0x87b0 = AcsControl.ofU16 0x07b0 ∧
    AcsControl.ofU16 0x87b0 ≠ AcsControl.ofU16 0x87b8 :=
  ⟨(AcsControl_reads _ _).2 (by decide), fun h => absurd ((AcsControl_reads _ _).1 h) (by decide)⟩

end Pcics.AccessControlServices
