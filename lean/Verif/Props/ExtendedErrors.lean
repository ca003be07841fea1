import Verif.Spec.Errors
import Verif.Props.ExtendedCapabilities
/- Theorems about what the errors of the extended capability walk say -/

namespace Pcics.ExtendedCapabilities
open Spec

theorem plain_err {o : U16} {d : Bytes} {name : String} {need size : Nat}
    {k : ExtendedCapabilityKind} {e : ExtendedCapabilityError}
    (h : plain o d name need size k = .err e) : e = .Data o ⟨name, size⟩ := by
  unfold plain at h
  split at h
  · cases h
  · cases h; rfl

theorem wrap_err {ε α : Type} {k : α → ExtendedCapabilityKind} {e : ε → ExtendedCapabilityError}
    {r : Res ε α} {x : ExtendedCapabilityError} (h : wrap k e r = .err x) : ∃ y, x = e y := by
  cases r with
  | ok y => cases h
  | err y => cases h; exact ⟨y, rfl⟩
  | panic => cases h

theorem kindSpec_offset (o id : U16) (s d : Bytes) (e : ExtendedCapabilityError)
    (he : kindSpec o id s d = .err e) : e.namedOffset = some o := by
  have hb : id = BitVec.ofNat 16 id.toNat := by simp
  have hl := id.isLt
  generalize id.toNat = n at hb hl
  subst hb
  by_cases hn : n < 0x2d
  · interval_cases n
    all_goals first
      | (obtain rfl := plain_err he; rfl)
      | (obtain ⟨y, rfl⟩ := wrap_err he; rfl)
      | (cases he; done)
  · obtain ⟨m, rfl⟩ : ∃ m, n = m + 0x2d := ⟨n - 0x2d, by omega⟩
    rw [kindSpec_other o s d m (by omega)] at he
    cases he

/-- C69: in every state, an error of the extended walk names the offset the walk is at; the only
error without an offset is that of an offset below 0x100. -/
theorem ecap_error_offset (s : ExtendedCapabilities) (e : ExtendedCapabilityError)
    (he : s.next.1 = some (.err e)) :
    if s.next_capability_offset.toNat < 0x100 then e = .Offset
    else e.namedOffset = some s.next_capability_offset := by
  by_cases h0 : s.next_capability_offset = 0
  · rw [next_zero s h0] at he; cases he
  · by_cases hq : s.next_capability_offset.toNat < 0x100
    · rw [next_low s h0 hq] at he
      rw [if_pos hq]
      cases he; rfl
    · rw [if_neg hq]
      by_cases hf : fits s.ecs s.next_capability_offset
      · by_cases hz : header s.ecs s.next_capability_offset = 0
        · rw [next_empty s hf hz] at he; cases he
        · rw [next_live s ⟨hf, hz⟩] at he
          simp only [Option.some.injEq] at he
          unfold itemAt report at he
          split at he
          · cases he
          · rename_i e' hk; cases he; exact kindSpec_offset _ _ _ _ _ hk
          · cases he
      · rw [next_dangling s (by omega) hf] at he
        cases he; rfl

example : (ExtendedCapabilities.mk sampleRegion 0x118).next.1 = some (.err
    (.Data 0x118 ⟨"Root Complex Event Collector Endpoint Association", 4⟩)) := by decide +kernel

/-- The ids whose data error names another size than the one of the bytes the decoder is given. -/
def wrongSize : List U16 := [0x0002, 0x0009, 0x0012, 0x0018]

/-- C69 (what is missing: the ids of `wrongSize`; it is false for all of them but Latency Tolerance
Reporting, see `ecap_error_size_ltr`): the size named in a
data error is exactly the number of bytes needed, counted either after the extended capability
header or from it. -/
theorem ecap_error_size_partial (o o' id : U16) (d s : Bytes) (src : ExtendedCapabilityDataError)
    (he : decodeKind o id d s = .err (.Data o' src)) (hid : id ∉ wrongSize) :
    (∀ d' s', (decodeKind o id d' s').isOk = true ↔ src.size ≤ d'.length) ∨
    (∀ d' s', (decodeKind o id d' s').isOk = true ↔ src.size ≤ s'.length) := by
  simp only [ecap_dispatch] at he ⊢
  have hok : ∀ (x : Bytes) name need k, (plain o x name need need k).isOk = true ↔
      need ≤ x.length := by
    intro x name need k
    unfold plain
    by_cases h : need ≤ x.length
    · simp only [h, if_true, iff_true]; rfl
    · simp only [h, if_false, iff_false]; simp [Res.isOk]
  have hb : id = BitVec.ofNat 16 id.toNat := by simp
  have hl := id.isLt
  generalize id.toNat = n at hb hl
  subst hb
  by_cases hn : n < 0x2d
  · interval_cases n
    all_goals first
      | (exact absurd (by decide) hid)
      | (obtain h := plain_err he
         simp only [ExtendedCapabilityError.Data.injEq] at h
         obtain ⟨-, rfl⟩ := h
         first
           | exact .inl fun d' s' => hok d' _ _ _
           | exact .inr fun d' s' => hok s' _ _ _)
      | (obtain ⟨y, h⟩ := wrap_err he; cases h; done)
      | (cases he; done)
  · obtain ⟨m, rfl⟩ : ∃ m, n = m + 0x2d := ⟨n - 0x2d, by omega⟩
    rw [kindSpec_other o s d m (by omega)] at he
    cases he

example : decodeKind 0x100 0x000f [1, 2, 3] [] =
    .err (.Data 0x100 ⟨"Address Translation Services", 4⟩) := by decide +kernel

/-- C69 (the code violates it): Virtual Channel, with and without MFVC, is refused with 8 bytes of
registers by an error that names 8 bytes. -/
theorem ecap_error_size_vc (d s : Bytes) (h : d.length = 8) :
    decodeKind 0x100 0x0002 d s = .err (.Data 0x100 ⟨"Virtual Channel", 8⟩) ∧
    decodeKind 0x100 0x0009 d s = .err (.Data 0x100 ⟨"Virtual Channel", 8⟩) := by
  simp only [ecap_dispatch]
  have : ∀ k, plain 0x100 d "Virtual Channel" 12 8 k = .err (.Data 0x100 ⟨"Virtual Channel", 8⟩) := by
    intro k
    unfold plain
    rw [if_neg (by omega)]
  exact ⟨this _, this _⟩

theorem plain_size (x : Bytes) (name : String) (need size : Nat) (k) :
    ((plain 0x100 x name need size k).isOk = true ↔ need ≤ x.length) ∧
    (x.length < need → plain 0x100 x name need size k = .err (.Data 0x100 ⟨name, size⟩)) := by
  unfold plain
  by_cases h : need ≤ x.length
  · simp only [h, if_true, iff_true]; exact ⟨rfl, fun h' => absurd h' (by omega)⟩
  · simp only [h, if_false, iff_false]; simp [Res.isOk]

/-- C69: Latency Tolerance Reporting, the only id of `wrongSize` with a right size: the 8 bytes its
error names are those needed with the four of the header, though the decoder is given the registers
after the header. -/
theorem ecap_error_size_ltr (d s : Bytes) :
    ((decodeKind 0x100 0x0018 d s).isOk = true ↔ 8 ≤ 4 + d.length) ∧
    (4 + d.length < 8 → decodeKind 0x100 0x0018 d s =
      .err (.Data 0x100 ⟨"Latency Tolerance Reporting", 8⟩)) := by
  simp only [ecap_dispatch]
  have h := plain_size d "Latency Tolerance Reporting" 4 8
  exact ⟨(h _).1.trans (by omega), fun hd => (h _).2 (by omega)⟩

example : decodeKind 0x100 0x0018 [1, 2, 3] [] =
    .err (.Data 0x100 ⟨"Latency Tolerance Reporting", 8⟩) := by decide +kernel

/-- C69 (the code violates it): Multicast is decoded from 40 bytes; the error with fewer bytes
names 48. -/
theorem ecap_error_size_multicast (d s : Bytes) :
    ((decodeKind 0x100 0x0012 d s).isOk = true ↔ 40 ≤ s.length) ∧
    (s.length < 40 → decodeKind 0x100 0x0012 d s = .err (.Data 0x100 ⟨"Multicast", 48⟩)) := by
  simp only [ecap_dispatch]
  exact plain_size s _ _ _ _

end Pcics.ExtendedCapabilities
