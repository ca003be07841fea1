import Verif.Props.Frame
/- Theorems about comparing capabilities (C96); their `PartialEq` is derived, all fields are
compared. -/

namespace Pcics.Frame
open Spec

/-- C96: what is decoded from data agreeing in the bytes of the structure compares equal, whatever
follows.  Partial: not so for Enhanced Allocation, see `ea_eq_foreign_bytes`; and the structures of
AGP and PCI Express are counted as in `cap_frame_partial`. -/
theorem cap_eq_own_partial (real : Bool) (h : Header.Header) (p id : U8) (d d' : Bytes)
    (hid : id ≠ 0x14) (ha : agree (readSize real h id d) d d') :
    (decodeKind h p id d == decodeKind h p id d') = true := by
  have hf := cap_frame_partial real h p id d d' ha
  rw [beq_iff_eq]
  cases hk : decodeKind h p id d with
  | err e =>
    rw [hk] at hf
    cases hk' : decodeKind h p id d' <;> rw [hk'] at hf <;> simpa [sameKind] using hf
  | panic =>
    rw [hk] at hf
    cases hk' : decodeKind h p id d' <;> rw [hk'] at hf <;> simpa [sameKind] using hf
  | ok k =>
    have hi := (cap_kind_of_id h p id d k hk).1
    rw [hk] at hf
    cases hk' : decodeKind h p id d' <;> rw [hk'] at hf <;> simp only [sameKind] at hf
    · unfold CapabilityKind.same at hf
      split at hf
      · exact absurd hi.symm hid
      · rw [hf]
    · simp at hf
    · simp at hf

example (h : Header.Header) :
    agree (readSize false h 0x01 [1, 2, 3, 4, 5, 6]) [1, 2, 3, 4, 5, 6] [1, 2, 3, 4, 5, 6, 7] := by
  simp only [readSize, structSize, pick, BitVec.reduceEq, if_true, if_false]
  decide

/-- C96 (the code violates it): Enhanced Allocation capabilities whose structures are the same
compare unequal whenever any byte after the structure differs, as all of what follows is kept in
`entries`; the entries returned are the same. -/
theorem ea_eq_foreign_bytes (real : Bool) (h : Header.Header) (p : U8) (d d' : Bytes)
    (ha : agree (structSize real h 0x14 d) d d') (hd : d ≠ d') :
    ∃ v w, decodeKind h p 0x14 d = .ok (.EnhancedAllocation v) ∧
      decodeKind h p 0x14 d' = .ok (.EnhancedAllocation w) ∧ (v == w) = false ∧
      v.num_entries = w.num_entries ∧ v.type_1_second_dw = w.type_1_second_dw ∧
      ∀ fuel, v.entries.collect real fuel = w.entries.collect real fuel := by
  have e : structSize real h 0x14 d = enhancedAllocationSize real (typeOne h) d := by
    simp only [structSize, pick, BitVec.reduceEq, if_true, if_false]
  rw [e] at ha
  have hs := ea_same real (typeOne h) p ha
  have hdec : ∀ x, decodeKind h p 0x14 x = enhancedAllocationKind (typeOne h) p x := by
    intro x
    rw [decodeKind_eq]
    simp only [kindSpec, pick, BitVec.reduceEq, if_true, if_false]
  rw [hdec, hdec]
  have hle : (if typeOne h then 6 else 2) ≤ enhancedAllocationSize real (typeOne h) d := by
    simp only [enhancedAllocationSize]; omega
  have hdrop : d.drop (if typeOne h then 6 else 2) ≠ d'.drop (if typeOne h then 6 else 2) := by
    intro hx
    apply hd
    rw [← List.take_append_drop (if typeOne h then 6 else 2) d, hx, ha.take _ hle,
      List.take_append_drop]
  have h1 := ha.1
  have h2 := ha.2.1
  generalize typeOne h = b at *
  cases b <;> simp only [Bool.false_eq_true, if_true, if_false] at hle hdrop
  · simp only [enhancedAllocationKind, Bool.false_eq_true, if_false,
      show ¬ d.length < 2 by omega, show ¬ d'.length < 2 by omega] at hs ⊢
    refine ⟨_, _, rfl, rfl, ?_, hs⟩
    simp [hdrop]
  · simp only [enhancedAllocationKind, if_true,
      show ¬ d.length < 6 by omega, show ¬ d'.length < 6 by omega] at hs ⊢
    refine ⟨_, _, rfl, rfl, ?_, hs⟩
    simp [hdrop]

/-- One entry of 12 bytes, with and without something after it. -/
example (h : Header.Header) (hb : typeOne h = false) :
    agree (structSize false h 0x14 [1, 0, 2, 0, 2, 0x80, 0, 0, 0, 0x10, 0xfc, 0x0f, 0, 0])
      [1, 0, 2, 0, 2, 0x80, 0, 0, 0, 0x10, 0xfc, 0x0f, 0, 0]
      [1, 0, 2, 0, 2, 0x80, 0, 0, 0, 0x10, 0xfc, 0x0f, 0, 0, 0xaa] := by
  simp only [structSize, pick, BitVec.reduceEq, if_true, if_false, hb]
  decide

/-- C96 (the code violates it): Enhanced Allocation capabilities compare equal exactly when the entry
counts, the bus numbers (bridges only) and all bytes from the first entry on are the same, to the end
of the space; reserved bits before the entries are not compared. -/
theorem ea_eq_all_bytes (h : Header.Header) (p : U8) (d d' : Bytes) (k k' : CapabilityKind)
    (hk : decodeKind h p 0x14 d = .ok k) (hk' : decodeKind h p 0x14 d' = .ok k') :
    (k == k') = true ↔ (fld (byteAt d 0) 0 6 : U8) = fld (byteAt d' 0) 0 6 ∧
      (typeOne h = true → byteAt d 2 = byteAt d' 2 ∧ byteAt d 3 = byteAt d' 3) ∧
      d.drop (if typeOne h then 6 else 2) = d'.drop (if typeOne h then 6 else 2) := by
  rw [decodeKind_eq] at hk hk'
  simp only [kindSpec, pick, BitVec.reduceEq, if_true, if_false, enhancedAllocationKind] at hk hk'
  generalize typeOne h = b at *
  have inv : ∀ {c : Prop} [Decidable c] {e : CapabilityError} {x y : CapabilityKind},
      (if c then Res.err e else Res.ok x) = .ok y → y = x := by
    intro c _ e x y hc
    split at hc
    · cases hc
    · exact (Res.ok.inj hc).symm
  rw [inv hk, inv hk', beq_iff_eq]
  cases b <;> simp <;> tauto

example (h : Header.Header) : typeOne h = false →
    (∃ k, decodeKind h 0x40 0x14 [1, 0, 2] = .ok k) ∧ ∃ k, decodeKind h 0x40 0x14 [0x41, 9, 2] = .ok k := by
  intro hb
  simp only [decodeKind_eq, kindSpec, pick, BitVec.reduceEq, if_true, if_false,
    enhancedAllocationKind, hb]
  exact ⟨⟨_, rfl⟩, _, rfl⟩

end Pcics.Frame
