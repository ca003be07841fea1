import Verif.Spec.Errors
import Verif.Props.Capabilities
import Verif.Lemmas.ExtendedCapabilities
/- Theorems about what the errors of the capability walk say -/

namespace Pcics
open Spec

theorem kindSpec_ptr (h : Header.Header) (p id : U8) (d : Bytes) (e : CapabilityError)
    (he : kindSpec h p id d = .err e) : e.ptr = some p := by
  have key : ∀ e, kindSpec h p id d = .err e → e.ptr = some p := by
    unfold kindSpec
    refine pick_ind (P := fun _ (r : Res CapabilityError CapabilityKind) =>
      ∀ e, r = .err e → e.ptr = some p) ?_ (by intro _ e h; cases h)
    intro x hx
    simp only [List.mem_cons, List.not_mem_nil, or_false] at hx
    rcases hx with h | h | h | h | h | h | h | h | h | h | h | h | h | h | h | h | h | h | h | h | h |
      h <;> subst h <;> intro e he
    all_goals first
      | (cases he; done)
      | (unfold plainKind at he; split at he <;> cases he; rfl)
      | (unfold msiKind at he; dsimp only at he; repeat' split at he
         all_goals (cases he; try rfl))
      | (unfold pciXKind at he; dsimp only at he; repeat' split at he
         all_goals (cases he; try rfl))
      | (unfold hypertransportKind at he; repeat' split at he
         all_goals (cases he; try rfl))
      | (unfold vendorSpecificKind at he; dsimp only at he; repeat' split at he
         all_goals (cases he; try rfl))
      | (unfold pciExpressKind at he; repeat' split at he
         all_goals (cases he; try rfl))
      | (unfold enhancedAllocationKind at he; repeat' split at he
         all_goals (cases he; try rfl))
  exact key e he

/-- C68: in every state, an error of the capability walk names the pointer the walk is at; the only
error without a pointer is that of a pointer into the header. -/
theorem cap_error_pointer (s : Capabilities) (e : CapabilityError)
    (he : s.next.1 = some (.err e)) :
    if s.pointer.toNat < 0x40 then e = .Pointer else e.ptr = some s.pointer := by
  by_cases h0 : s.pointer = 0
  · rw [next_zero _ h0] at he; cases he
  · by_cases hp : s.pointer.toNat < 0x40
    · rw [next_header _ h0 hp] at he
      simp only [hp, if_true]
      cases he; rfl
    · simp only [hp, if_false]
      by_cases hf : capFits s.data s.pointer
      · rw [next_fits _ hf] at he
        simp only [Option.some.injEq] at he
        unfold capItem at he
        split at he
        · cases he
        · rename_i e' hk; cases he; exact kindSpec_ptr _ _ _ _ _ hk
        · cases he
      · rw [next_dangling _ (by omega) hf] at he
        cases he; rfl

example : (Capabilities.mk sampleRegion (sampleHeader 0x80) 0xa8).next.1 =
    some (.err (.Data 0xa8 ⟨"Serial ATA", 6⟩)) := by decide +kernel

/-- C68: the size named in a data error is exactly the number of register bytes the capability
needs: with fewer the same error is reported, with as many or more it is decoded. -/
theorem cap_error_size (h : Header.Header) (p q id : U8) (d : Bytes) (src : CapabilityDataError)
    (he : decodeKind h p id d = .err (.Data q src)) (d' : Bytes) :
    if d'.length < src.size then decodeKind h p id d' = .err (.Data p src)
    else (decodeKind h p id d').isOk = true := by
  rw [cap_dispatch] at he ⊢
  have hplain : ∀ name need (k k' : CapabilityKind),
      plainKind p d name need k = .err (.Data q src) →
      if d'.length < src.size then plainKind p d' name need k' = .err (.Data p src)
      else (plainKind p d' name need k').isOk = true := by
    intro name need k k' hk
    unfold plainKind at hk ⊢
    split at hk
    · cases hk
    · cases hk
      by_cases hl : d'.length < need
      · rw [if_pos hl, if_neg (by omega)]
      · rw [if_neg hl, if_pos (by omega)]; rfl
  have hb : id = BitVec.ofNat 8 id.toNat := by simp
  have hl := id.isLt
  generalize id.toNat = n at hb hl
  subst hb
  by_cases hn : n < 0x16
  · interval_cases n
    all_goals first
      | exact hplain _ _ _ _ he
      | (exfalso; cases he; done)
      | skip
    all_goals exfalso
    · change msiKind p d = _ at he
      unfold msiKind at he; dsimp only at he; repeat' split at he
      all_goals cases he
    · change pciXKind _ p d = _ at he
      unfold pciXKind at he; dsimp only at he; repeat' split at he
      all_goals cases he
    · change hypertransportKind p d = _ at he
      unfold hypertransportKind at he; repeat' split at he
      all_goals cases he
    · change vendorSpecificKind _ _ p d = _ at he
      unfold vendorSpecificKind at he; dsimp only at he; repeat' split at he
      all_goals cases he
    · change pciExpressKind p d = _ at he
      unfold pciExpressKind at he; repeat' split at he
      all_goals cases he
    · change enhancedAllocationKind _ p d = _ at he
      unfold enhancedAllocationKind at he; repeat' split at he
      all_goals cases he
  · exfalso
    have : kindSpec h p (BitVec.ofNat 8 n) d = .ok (.Reserved (BitVec.ofNat 8 n)) := by
      refine ExtendedCapabilities.pick_other _ _ _ ?_
      show BitVec.ofNat 8 n ∉ (List.range 0x16).map (BitVec.ofNat 8)
      intro hm
      obtain ⟨m, hm, e⟩ := List.mem_map.1 hm
      have := congrArg BitVec.toNat e
      rw [List.mem_range] at hm
      simp only [BitVec.toNat_ofNat] at this
      omega
    rw [this] at he
    cases he

example : decodeKind (sampleHeader 0x80) 0x40 0x11 (List.replicate 9 0) =
    .err (.Data 0x40 ⟨"MSI-X", 10⟩) := by decide +kernel

end Pcics
