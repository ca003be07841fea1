import Verif.Props.Texts
/- Theorems about what the texts of errors of the extended capability walk say -/

namespace Pcics.ExtendedCapabilities
open Spec

theorem plain_text (o : U16) (d : Bytes) (name : String) (need size : Nat)
    (k : ExtendedCapabilityKind) :
    said ExtendedCapabilityError.display (plain o d name need size k) =
      under ("[" ++ fmtHex 3 o.toNat ++ "] ") (lacksData d name need size) := by
  unfold plain lacksData lacks
  by_cases h : need ≤ d.length
  · rw [if_pos h, if_neg (by omega)]; rfl
  · rw [if_neg h, if_pos (by omega)]
    simp only [said, under, Option.map_some, ExtendedCapabilityError.display,
      ExtendedCapabilityDataError.display, dec_eq, String.append_assoc]
    rfl

theorem wrapped_text {ε α : Type} (f : ε → String) (k : α → ExtendedCapabilityKind) (o : U16)
    (c : U16 → ε → ExtendedCapabilityError) (r : Res ε α) (t : Option String) (hr : said f r = t)
    (after title : String) (ha : after = "] " ++ title)
    (hc : ∀ e, (c o e).display = "[" ++ fmtHex 3 o.toNat ++ after ++ f e) :
    said ExtendedCapabilityError.display (wrap k (c o) r) =
      under ("[" ++ fmtHex 3 o.toNat ++ "] ") (under title t) := by
  rw [under_under, ← wrap_eq]
  refine said_wrapped f _ k (c o) _ r t hr fun e => ?_
  rw [hc, ha]
  simp only [String.append_assoc]

theorem kind_text (o id : U16) (s d : Bytes) (ho : o.toNat < 0x1000) :
    said ExtendedCapabilityError.display (kindSpec o id s d) =
      under ("[" ++ hex 3 o.toNat ++ "] ") (ecapText id s d) := by
  rw [← hex_eq 3 _ (by decide) ho]
  have h0 := wrapped_text _ .AdvancedErrorReporting o .AdvancedErrorReporting
    (decodedAdvancedErrorReporting d) _
    ((congrArg (said _) (AdvancedErrorReporting.AdvancedErrorReporting_bytes d).symm).trans (aer_says d))
    "] Advanced Error Reporting error: " "Advanced Error Reporting error: " rfl (fun _ => rfl)
  have h1 := wrapped_text _ .RootComplexLinkDeclaration o .RootComplexLinkDeclaration
    (decodedRootComplexLinkDeclaration d) _
    ((congrArg (said _) (RootComplexLinkDeclaration.RootComplexLinkDeclaration_bytes d).symm).trans (link_declaration_says d))
    "] Root Complex Link Declaration error: " "Root Complex Link Declaration error: " rfl (fun _ => rfl)
  have h2 := wrapped_text _ .MultifunctionVirtualChannel o .MultifunctionVirtualChannel
    (decodedMultifunctionVirtualChannel s) _
    ((congrArg (said _) (MultifunctionVirtualChannel.MultifunctionVirtualChannel_bytes s).symm).trans (mfvc_says s))
    "] Multi-Function Virtual Channel error: " "Multi-Function Virtual Channel error: " rfl (fun _ => rfl)
  have h3 := wrapped_text _ .ResizableBar o .ResizableBar
    (decodedResizableBar s) _
    ((congrArg (said _) (ResizableBar.ResizableBar_bytes s).symm).trans (resizable_bar_says s))
    "] Resizable BAR error: " "Resizable BAR error: " rfl (fun _ => rfl)
  have h4 := wrapped_text _ .DynamicPowerAllocation o .DynamicPowerAllocation
    (decodedDynamicPowerAllocation s) _
    ((congrArg (said _) (DynamicPowerAllocation.DynamicPowerAllocation_bytes s).symm).trans (dpa_says s))
    "] Dynamic Power Allocation error: " "Dynamic Power Allocation error: " rfl (fun _ => rfl)
  have h5 := wrapped_text _ .ProtocolMultiplexing o .ProtocolMultiplexing
    (decodedProtocolMultiplexing s) _
    ((congrArg (said _) (ProtocolMultiplexing.ProtocolMultiplexing_bytes s).symm).trans (pmux_says s))
    "] Protocol Multiplexing error: " "Protocol Multiplexing error: " rfl (fun _ => rfl)
  have h6 := wrapped_text _ .DownstreamPortContainment o .DownstreamPortContainment
    (decodedDownstreamPortContainment d) _
    ((congrArg (said _) (DownstreamPortContainment.DownstreamPortContainment_bytes d).symm).trans (dpc_says d))
    "] Downstream Port Containment error: " "Downstream Port Containment error: " rfl (fun _ => rfl)
  have h7 := wrapped_text _ .DesignatedVendorSpecificExtendedCapability o .DesignatedVendorSpecificExtendedCapability
    (decodedDesignatedVendorSpecificExtendedCapability s) _
    ((congrArg (said _) (DesignatedVendorSpecificExtendedCapability.Dvsec_bytes s).symm).trans (dvsec_says s))
    "] Designated Vendor-Specific Extended Capabilities error: " "Designated Vendor-Specific Extended Capabilities error: " rfl (fun _ => rfl)
  have h8 := wrapped_text _ .VfResizableBar o .VfResizableBar
    (decodedResizableBar s) _
    ((congrArg (said _) (ResizableBar.ResizableBar_bytes s).symm).trans (resizable_bar_says s))
    "] VF Resizable BAR error: " "VF Resizable BAR error: " rfl (fun _ => rfl)
  unfold kindSpec ecapText
  rw [said_pick]
  simp only [List.map_cons, List.map_nil, plain_text, h0, h1, h2, h3, h4, h5, h6, h7, h8]
  have hb : id = BitVec.ofNat 16 id.toNat := by simp
  have hl := id.isLt
  generalize id.toNat = n at hb hl
  subst hb
  by_cases hn : n < 0x2d
  · interval_cases n <;> rfl
  · have hid : (BitVec.ofNat 16 n).toNat = n := by rw [BitVec.toNat_ofNat]; omega
    rw [pick_other, pick_other]
    · rfl
    all_goals
      intro hm
      refine hn ?_
      rw [← hid]
      exact below_of_mem 0x2d hm rfl

theorem after_ecs (s : ExtendedCapabilities) (k : Nat) : (s.after k).ecs = s.ecs := by
  induction k generalizing s with
  | zero => rfl
  | succ k ih =>
    refine (ih s.next.2).trans ?_
    by_cases h0 : s.next_capability_offset = 0
    · rw [next_zero s h0]
    · by_cases hq : s.next_capability_offset.toNat < 0x100
      · rw [next_low s h0 hq]
      · by_cases hf : fits s.ecs s.next_capability_offset
        · by_cases hz : header s.ecs s.next_capability_offset = 0
          · rw [next_empty s hf hz]
          · rw [next_live s ⟨hf, hz⟩]
        · rw [next_dangling s (by omega) hf]

/-- C91: what the walk over an extended configuration space says at any call: the place and what the
table says of the extended capability found there (the structures of the ids of C27 are those at the
start of the space). -/
theorem ecap_walk_says (ecs : Bytes) (k : Nat) :
    let o := ((ExtendedCapabilities.new ecs).after k).next_capability_offset
    ((ExtendedCapabilities.new ecs).item k).bind (said ExtendedCapabilityError.display) =
      if o = 0 then none
      else if o.toNat < 0x100 then some "extended capability offset should be greater than 0xFF"
      else if ¬ fits ecs o then
        some ("[" ++ hex 3 o.toNat ++ "] extended capability header shorter than u32")
      else if header ecs o = 0 then none
      else under ("[" ++ hex 3 o.toNat ++ "] ")
        (ecapText (capId ecs o) ecs ((structureAt ecs o).drop 4)) := by
  intro o
  have ho : o.toNat < 0x1000 :=
    after_offset (ExtendedCapabilities.new ecs) (show (0x100 : U16).toNat < 0x1000 by decide) k
  have he : ((ExtendedCapabilities.new ecs).after k).ecs = ecs := after_ecs _ k
  show (((ExtendedCapabilities.new ecs).after k).next.1).bind _ = _
  have hs : (ExtendedCapabilities.new ecs).after k = ⟨ecs, o⟩ := by
    cases hx : (ExtendedCapabilities.new ecs).after k
    simp only [hx] at he
    simp only [o, hx, he]
  rw [hs]
  clear_value o
  by_cases h0 : o = 0
  · rw [next_zero ⟨ecs, o⟩ h0, if_pos h0]; rfl
  by_cases h1 : o.toNat < 0x100
  · rw [next_low ⟨ecs, o⟩ h0 h1, if_neg h0, if_pos h1]; rfl
  by_cases h2 : fits ecs o
  · by_cases h3 : header ecs o = 0
    · rw [next_empty ⟨ecs, o⟩ h2 h3, if_neg h0, if_neg h1, if_neg (not_not.2 h2), if_pos h3]; rfl
    · rw [next_live ⟨ecs, o⟩ ⟨h2, h3⟩, if_neg h0, if_neg h1, if_neg (not_not.2 h2), if_neg h3,
        ← kind_text _ _ _ _ ho]
      show said _ (itemAt ecs o) = _
      unfold itemAt report
      cases kindSpec o (capId ecs o) ecs ((structureAt ecs o).drop 4) <;> rfl
  · rw [next_dangling ⟨ecs, o⟩ (by show 0x100 ≤ o.toNat; omega) h2, if_neg h0, if_neg h1, if_pos h2,
      ← hex_eq 3 _ (by decide) ho]
    rfl

/-- An Address Translation Services header (id 0x0f) with one byte of its registers. -/
example : ((ExtendedCapabilities.new [0x0f, 0, 1, 0, 7]).item 0).bind
      (said ExtendedCapabilityError.display) =
    some "[100] Address Translation Services (4 bytes) data read error" := by decide +kernel

end Pcics.ExtendedCapabilities
