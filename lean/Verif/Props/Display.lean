import Verif.Lemmas.Display
import Verif.Props.Errors
import Verif.Props.ExtendedErrors
/- Theorems about the texts of errors -/

namespace Pcics
open Spec

theorem place_of_hex (w n : Nat) (text : String) (hw : 0 < w) (h : n < 16 ^ w)
    (ht : ∃ rest, text.toList = '[' :: ((fmtHex w n).toList ++ ']' :: ' ' :: rest)) :
    startsWithPlace text w n := by
  obtain ⟨rest, ht⟩ := ht
  exact ⟨_, rest, ht, fmtHex_length w n hw h, fmtHex_mem w n, fmtHex_value w n⟩

theorem CapabilityError.display_place (e : CapabilityError) (p : U8) (h : e.ptr = some p) :
    ∃ rest, e.display.toList = '[' :: ((fmtHex 2 p.toNat).toList ++ ']' :: ' ' :: rest) := by
  cases e <;> cases h
  all_goals
    delta CapabilityError.display
    dsimp only
    simp only [String.toList_append, String.reduceToList, List.append_assoc, List.cons_append,
      List.nil_append]
    exact ⟨_, rfl⟩

theorem ExtendedCapabilities.ExtendedCapabilityError.display_place
    (e : ExtendedCapabilities.ExtendedCapabilityError) (o : U16) (h : e.namedOffset = some o) :
    ∃ rest, e.display.toList = '[' :: ((fmtHex 3 o.toNat).toList ++ ']' :: ' ' :: rest) := by
  cases e <;> cases h
  all_goals
    delta ExtendedCapabilities.ExtendedCapabilityError.display
    dsimp only
    simp only [String.toList_append, String.reduceToList, List.append_assoc, List.cons_append,
      List.nil_append]
    exact ⟨_, rfl⟩

/-- C79: in every state, the text of an error of the capability walk starts with the pointer the walk
is at, as two hexadecimal digits; only a pointer into the header is not named. -/
theorem cap_error_text (s : Capabilities) (e : CapabilityError) (he : s.next.1 = some (.err e)) :
    if s.pointer.toNat < 0x40 then e.display = "capabilities pointer should be greater than 0x40"
    else startsWithPlace e.display 2 s.pointer.toNat := by
  have := cap_error_pointer s e he
  split
  · rename_i h
    rw [if_pos h] at this
    subst this
    rfl
  · rename_i h
    rw [if_neg h] at this
    exact place_of_hex 2 _ _ (by omega) s.pointer.isLt (e.display_place _ this)

example : ((Capabilities.mk sampleRegion (sampleHeader 0x80) 0xa8).next.1 =
      some (.err (.Data 0xa8 ⟨"Serial ATA", 6⟩))) ∧
    CapabilityError.display (.Data 0xa8 ⟨"Serial ATA", 6⟩) =
      "[a8] Serial ATA (6 bytes) data read error" := ⟨by decide +kernel, by decide +kernel⟩

theorem ExtendedCapabilities.after_offset (s : ExtendedCapabilities.ExtendedCapabilities)
    (h : s.next_capability_offset.toNat < 0x1000) (k : Nat) :
    (s.after k).next_capability_offset.toNat < 0x1000 := by
  induction k generalizing s with
  | zero => exact h
  | succ k ih =>
    refine ih s.next.2 ?_
    by_cases h0 : s.next_capability_offset = 0
    · rw [next_zero s h0]; exact h
    · by_cases hq : s.next_capability_offset.toNat < 0x100
      · rw [next_low s h0 hq]; simp
      · by_cases hf : fits s.ecs s.next_capability_offset
        · by_cases hz : header s.ecs s.next_capability_offset = 0
          · rw [next_empty s hf hz]; exact h
          · rw [next_live s ⟨hf, hz⟩]; exact capNext_lt _ _
        · rw [next_dangling s (by omega) hf]; simp

/-- C79: in every walk over an extended configuration space, the text of the error of any call starts
with the offset the walk is at, as three hexadecimal digits; only an offset into the first 256 bytes
is not named. -/
theorem ecap_error_text (ecs : Bytes) (k : Nat) (e : ExtendedCapabilities.ExtendedCapabilityError)
    (he : (ExtendedCapabilities.ExtendedCapabilities.new ecs).item k = some (.err e)) :
    let o := ((ExtendedCapabilities.ExtendedCapabilities.new ecs).after k).next_capability_offset
    if o.toNat < 0x100 then e.display = "extended capability offset should be greater than 0xFF"
    else startsWithPlace e.display 3 o.toNat := by
  intro o
  have := ExtendedCapabilities.ecap_error_offset _ e he
  split
  · rename_i h
    rw [if_pos h] at this
    subst this
    rfl
  · rename_i h
    rw [if_neg h] at this
    exact place_of_hex 3 _ _ (by omega)
      (ExtendedCapabilities.after_offset _ (show (0x100 : U16).toNat < 0x1000 by decide) k) (e.display_place _ this)

set_option maxHeartbeats 4000000 in
/-- C79: the text of an error of the capability walk identifies it: different errors have different
texts, whatever pointer, name, size or cause they carry. -/
theorem cap_error_text_injective (e e' : CapabilityError) (h : e.display = e'.display) : e = e' := by
  replace h := congrArg String.toList h
  by_cases hd : ∃ p src, e = .Data p src
  · obtain ⟨p, src, rfl⟩ := hd
    by_cases hd' : ∃ p src, e' = .Data p src
    · obtain ⟨p', src', rfl⟩ := hd'
      rw [CapabilityError.display_data, CapabilityError.display_data,
        List.append_left_inj, List.cons.injEq] at h
      obtain ⟨h1, h2⟩ := hex_split (by decide) h.2
      simp only [List.cons.injEq, true_and] at h2
      rw [BitVec.eq_of_toNat_eq h1, CapabilityDataError.display_inj _ _ h2]
    · rw [CapabilityError.display_data] at h
      exact (data_ne_other (e'.display_end (by simpa using hd')) h).elim
  · by_cases hd' : ∃ p src, e' = .Data p src
    · obtain ⟨p', src', rfl⟩ := hd'
      rw [CapabilityError.display_data] at h
      exact (data_ne_other (e.display_end (by simpa using hd)) h.symm).elim
    · cases e <;> cases e' <;> first | rfl | (exfalso; exact hd ⟨_, _, rfl⟩) |
        (exfalso; exact hd' ⟨_, _, rfl⟩) | texts CapabilityError.display at h
      all_goals
        replace h := hex_split (by decide) h
        obtain ⟨hp, hr⟩ := h
        rw [BitVec.eq_of_toNat_eq hp]
      all_goals
        simp only [List.cons.injEq, Char.reduceEq, true_and, false_and, and_false] at hr
      · rw [PciExpress.PciExpressError.display_inj _ _ hr]
      · rw [Hypertransport.HypertransportError.display_inj _ _ hr]
      · rw [VendorSpecific.VendorSpecificError.display_inj _ _ hr]
      · rw [MessageSignaledInterrups.MessageSignaledInterrupsError.display_inj _ _ hr]
      · rw [PciX.PciXError.display_inj _ _ hr]
      · rw [PciX.PciXBridgeError.display_inj _ _ hr]
      · rw [EnhancedAllocation.EnhancedAllocationError.display_inj _ _ hr]

/-- Two errors that differ in one respect each. -/
example : CapabilityError.display (.VendorSpecific 0x48 (.Length 1)) =
      "[48] Vendor Specific error: length should be > 2, not 1" ∧
    CapabilityError.display (.VendorSpecific 0x48 (.Data 17)) =
      "[48] Vendor Specific error: unable to get 17 bytes data" ∧
    CapabilityError.display (.PciXBridge 0x50 .Mandatory) =
      "[50] PCI-X Bridge error: statuses and split trx control registers are unreadable" := by
  decide +kernel

set_option maxHeartbeats 8000000 in
/-- C79: the text of an error of the extended capability walk identifies it, up to the register and
the number that the texts of link declaration and Resizable BAR errors leave out. -/
theorem ecap_error_text_injective (e e' : ExtendedCapabilities.ExtendedCapabilityError) :
    e.display = e'.display ↔ e.sameShown e' := by
  constructor
  · intro h
    replace h := congrArg String.toList h
    by_cases hd : ∃ p src, e = .Data p src
    · obtain ⟨p, src, rfl⟩ := hd
      by_cases hd' : ∃ p src, e' = .Data p src
      · obtain ⟨p', src', rfl⟩ := hd'
        rw [ExtendedCapabilities.ExtendedCapabilityError.display_data,
          ExtendedCapabilities.ExtendedCapabilityError.display_data,
          List.append_left_inj, List.cons.injEq] at h
        obtain ⟨h1, h2⟩ := hex_split (by decide) h.2
        simp only [List.cons.injEq, true_and] at h2
        rw [BitVec.eq_of_toNat_eq h1, ExtendedCapabilityDataError.display_inj _ _ h2]
        rfl
      · rw [ExtendedCapabilities.ExtendedCapabilityError.display_data] at h
        exact (data_ne_other (e'.display_end (by simpa using hd')) h).elim
    · by_cases hd' : ∃ p src, e' = .Data p src
      · obtain ⟨p', src', rfl⟩ := hd'
        rw [ExtendedCapabilities.ExtendedCapabilityError.display_data] at h
        exact (data_ne_other (e.display_end (by simpa using hd)) h.symm).elim
      · cases e <;> cases e' <;> first | (exact rfl) | (exfalso; exact hd ⟨_, _, rfl⟩) |
          (exfalso; exact hd' ⟨_, _, rfl⟩) |
          texts ExtendedCapabilities.ExtendedCapabilityError.display at h
        all_goals
          replace h := hex_split (by decide) h
          obtain ⟨hp, hr⟩ := h
          replace hp := BitVec.eq_of_toNat_eq hp
          simp only [List.cons.injEq, Char.reduceEq, true_and, false_and, and_false] at hr
        · rw [hp]; rfl
        · rw [hp]; rfl
        · exact ⟨hp, RootComplexLinkDeclaration.RootComplexLinkDeclarationError.display_inj _ _ hr⟩
        · rw [hp, MultifunctionVirtualChannel.MultifunctionVirtualChannelError.display_inj _ _ hr]; rfl
        · rw [hp, AdvancedErrorReporting.AdvancedErrorReportingError.display_inj _ _ hr]; rfl
        · rw [hp, DownstreamPortContainment.DownstreamPortContainmentError.display_inj _ _ hr]; rfl
        · exact ⟨hp, ResizableBar.ResizableBarError.display_inj _ _ hr⟩
        · rw [hp, DynamicPowerAllocation.DynamicPowerAllocationError.display_inj _ _ hr]; rfl
        · rw [hp, ProtocolMultiplexing.ProtocolMultiplexingError.display_inj _ _ hr]; rfl
        · rw [hp, DesignatedVendorSpecificExtendedCapability.DesignatedVendorSpecificExtendedCapabilityError.display_inj _ _ hr]
          rfl
        · exact ⟨hp, ResizableBar.ResizableBarError.display_inj _ _ hr⟩
  · intro h
    cases e <;> cases e' <;> first
      | (cases h; done)
      | (cases h; rfl)
      | (obtain ⟨hp, hs⟩ := h
         subst hp
         rename_i x y
         cases x <;> cases y <;> first | rfl | (exfalso; revert hs; exact (by intro h; cases h)))

example : ExtendedCapabilities.ExtendedCapabilityError.display (.DesignatedVendorSpecificExtendedCapability
      0x2a0 (.VendorSpecificRegisters 0x1e98 1 56 0 40)) =
    "[2a0] Designated Vendor-Specific Extended Capabilities error: Vendor-specific registers " ++
      "(VID: 1e98, rev: 01, ID: 0000) are unreadable. Length expected: 56, real: 40" := by
  decide +kernel

end Pcics
