import Verif.Spec.ExtendedFrame
import Verif.Lemmas.Frame
import Verif.Lemmas.ExtendedCapabilities
/- Lemmas for Props/ExtendedFrame.lean. -/

namespace Pcics

theorem agree.rd32s {n : Nat} {d d' : Bytes} (h : agree n d d') (i m : Nat) (hi : i + 4 * m ≤ n) :
    Spec.rd32s d i m = Spec.rd32s d' i m := by
  unfold Spec.rd32s
  apply List.map_congr_left
  intro k hk
  rw [List.mem_range] at hk
  exact h.rd32 _ (by omega)

theorem agree.length_iff {n : Nat} {d d' : Bytes} (h : agree n d d') (m : Nat) (hm : m ≤ n) :
    d.length < m ↔ d'.length < m := by
  have := h.1
  have := h.2.1
  omega

namespace ExtendedCapabilities
open Spec

/-- The kinds that keep no bytes for later. -/
def closed : ExtendedCapabilityKind → Bool
  | .VirtualChannel _ | .VirtualChannelMfvcPresent _ | .AccessControlServices _
  | .SecondaryPciExpress _ | .MultifunctionVirtualChannel _ | .TphRequester _ => false
  | _ => true

theorem same_of_eq {n : Nat} {k k' : ExtendedCapabilityKind} (h : k = k') (hc : closed k = true) :
    k.same n k' := by
  subst h
  cases k <;> first | rfl | cases hc

theorem sameError_refl (e : ExtendedCapabilityError) : sameError e e := by
  unfold sameError
  split
  · exact And.intro rfl (And.intro rfl (And.intro rfl (And.intro rfl rfl)))
  · rfl

theorem sameKind_of_eq {n : Nat} {x y : Res ExtendedCapabilityError ExtendedCapabilityKind}
    (h : x = y) (hc : ∀ k, x = .ok k → closed k = true) : sameKind n x y := by
  subst h
  cases x with
  | ok k => exact same_of_eq rfl (hc k rfl)
  | err e => exact sameError_refl e
  | panic => rfl

theorem sameKind_wrap {n : Nat} {ε α : Type} (k : α → ExtendedCapabilityKind)
    (e : ε → ExtendedCapabilityError) (r : Res ε α) (hc : ∀ a, closed (k a) = true) :
    sameKind n (wrap k e r) (wrap k e r) := by
  cases r with
  | ok a => exact same_of_eq rfl (hc a)
  | err x => exact sameError_refl _
  | panic => rfl

theorem plain_same {m n : Nat} {d d' : Bytes} (h : agree n d d') (hm : m ≤ n) (o : U16)
    (name : String) (size : Nat) (k k' : ExtendedCapabilityKind) (hk : k.same n k') :
    sameKind n (plain o d name m size k) (plain o d' name m size k') := by
  have h1 := h.1
  have h2 := h.2.1
  simp only [plain, show m ≤ d.length by omega, show m ≤ d'.length by omega, if_true]
  exact hk

theorem aer_same {d d' : Bytes} (h : agree (if flag (rd32 d 20) 11 then 108 else 52) d d') :
    decodedAdvancedErrorReporting d = decodedAdvancedErrorReporting d' := by
  have e : rd32 d 20 = rd32 d' 20 := h.rd32 20 (by split <;> omega)
  have h1 := h.1
  have h2 := h.2.1
  unfold decodedAdvancedErrorReporting
  rw [e] at h h1 h2 ⊢
  generalize flag (rd32 d' 20) 11 = b at *
  have l1 : 52 ≤ d.length := by split at h1 <;> omega
  have l2 : 52 ≤ d'.length := by split at h2 <;> omega
  have hc : agree 52 d d' := h.mono (by split <;> omega)
  have hs : ∀ l, AdvancedErrorReporting.AdvancedErrorReporting.spec d l =
      AdvancedErrorReporting.AdvancedErrorReporting.spec d' l := by
    intro l
    simp (disch := omega) only [AdvancedErrorReporting.AdvancedErrorReporting.spec, hc.rd32, hc.rd16,
      hc.rd32s, l1, l2, if_true]
  simp only [show ¬ d.length < 40 by omega, show ¬ d'.length < 40 by omega, if_false, hs]
  cases b
  · rfl
  · simp only [if_true] at h h1 h2 ⊢
    simp only [show ¬ d.length < 108 by omega, show ¬ d'.length < 108 by omega, if_false]
    simp (disch := omega) only [h.rd32s]

theorem rcld_same {d d' : Bytes} (h : agree (12 + 16 * RootComplexLinkDeclaration.announced d) d d') :
    decodedRootComplexLinkDeclaration d = decodedRootComplexLinkDeclaration d' := by
  have e : rd32 d 0 = rd32 d' 0 := h.rd32 0 (by omega)
  have h1 := h.1
  have h2 := h.2.1
  have ea : RootComplexLinkDeclaration.announced d = RootComplexLinkDeclaration.announced d' := by
    unfold RootComplexLinkDeclaration.announced; rw [e]
  have ht := (h.drop 12 (by omega)).take (16 * RootComplexLinkDeclaration.announced d) (by omega)
  unfold decodedRootComplexLinkDeclaration
  rw [← ea, ← e, ht]
  generalize RootComplexLinkDeclaration.announced d = n at *
  simp only [show ¬ d.length < 4 by omega, show ¬ d'.length < 4 by omega, if_false]
  by_cases h0 : n = 0
  · simp only [h0, if_true]
  · simp only [h0, if_false, show ¬ d.length < 12 by omega, show ¬ d'.length < 12 by omega,
      show ¬ d.length < 28 by omega, show ¬ d'.length < 28 by omega,
      RootComplexLinkDeclaration.LinkEntriesState.spec, show 16 * n ≤ d.length - 12 by omega,
      show 16 * n ≤ d'.length - 12 by omega, if_true]

theorem rebar_same {d d' : Bytes} (h : agree (max 12 (4 + 8 * ResizableBar.numBars d)) d d') :
    decodedResizableBar d = decodedResizableBar d' := by
  have e : rd32 d 8 = rd32 d' 8 := h.rd32 8 (by omega)
  have h1 := h.1
  have h2 := h.2.1
  have ea : ResizableBar.numBars d = ResizableBar.numBars d' := by
    unfold ResizableBar.numBars; rw [e]
  have ht := (h.drop 4 (by omega)).take (8 * ResizableBar.numBars d) (by omega)
  unfold decodedResizableBar
  rw [← ea, ht]
  generalize ResizableBar.numBars d = n at *
  simp only [show ¬ d.length < 12 by omega, show ¬ d'.length < 12 by omega, if_false,
    show ¬ d.length < 4 + 8 * n by omega, show ¬ d'.length < 4 + 8 * n by omega]

theorem dpa_same {d d' : Bytes} (h : agree (16 + DynamicPowerAllocation.substates d) d d') :
    decodedDynamicPowerAllocation d = decodedDynamicPowerAllocation d' := by
  have h1 := h.1
  have h2 := h.2.1
  have hm : agree 16 d d' := h.mono (by omega)
  have ea : DynamicPowerAllocation.substates d = DynamicPowerAllocation.substates d' := by
    unfold DynamicPowerAllocation.substates; rw [hm.rd32 4 (by omega)]
  have ht := (h.drop 16 (by omega)).take (DynamicPowerAllocation.substates d) (by omega)
  unfold decodedDynamicPowerAllocation DynamicPowerAllocation.DynamicPowerAllocation.spec
  rw [← ea, ht]
  generalize DynamicPowerAllocation.substates d = n at *
  simp only [show ¬ d.length < 16 by omega, show ¬ d'.length < 16 by omega, if_false,
    show ¬ d.length < 16 + n by omega, show ¬ d'.length < 16 + n by omega]
  frame hm [pick]

theorem pmux_same {d d' : Bytes} (h : agree (16 + ProtocolMultiplexing.arrayBytes d) d d') :
    decodedProtocolMultiplexing d = decodedProtocolMultiplexing d' := by
  have h1 := h.1
  have h2 := h.2.1
  have hm : agree 16 d d' := h.mono (by omega)
  have ea : ProtocolMultiplexing.arrayBytes d = ProtocolMultiplexing.arrayBytes d' := by
    unfold ProtocolMultiplexing.arrayBytes; rw [hm.rd32 4 (by omega)]
  have ht := (h.drop 16 (by omega)).take (ProtocolMultiplexing.arrayBytes d) (by omega)
  unfold decodedProtocolMultiplexing ProtocolMultiplexing.ProtocolMultiplexing.spec
  rw [← ea, ht]
  generalize ProtocolMultiplexing.arrayBytes d = n at *
  simp only [show ¬ d.length < 16 by omega, show ¬ d'.length < 16 by omega, if_false,
    show ¬ d.length < 16 + n by omega, show ¬ d'.length < 16 + n by omega]
  frame hm [pick]

theorem dpc_same {d d' : Bytes} (h : agree (dpcSize d) d d') :
    decodedDownstreamPortContainment d = decodedDownstreamPortContainment d' := by
  have hm : agree 8 d d' := h.mono (by unfold dpcSize; repeat' split
                                       all_goals omega)
  have e : rd16 d 0 = rd16 d' 0 := hm.rd16 0 (by omega)
  have el : DownstreamPortContainment.logSize d = DownstreamPortContainment.logSize d' := by
    unfold DownstreamPortContainment.logSize; rw [e]
  have ep : DownstreamPortContainment.prefixDwords d = DownstreamPortContainment.prefixDwords d' := by
    unfold DownstreamPortContainment.prefixDwords; rw [el]
  have hs : ∀ x, DownstreamPortContainment.DownstreamPortContainment.spec d x =
      DownstreamPortContainment.DownstreamPortContainment.spec d' x := by
    intro x; frame hm [DownstreamPortContainment.DownstreamPortContainment.spec]
  have h1 := h.1
  have h2 := h.2.1
  unfold dpcSize at h h1 h2
  unfold decodedDownstreamPortContainment
  simp only [hs, ← e, ← el, ← ep]
  by_cases c : flag (rd16 d 0) 5 = false
  · simp only [c, if_true] at h h1 h2 ⊢
    simp only [show ¬ d.length < 8 by omega, show ¬ d'.length < 8 by omega, if_false]
  · rw [if_neg c] at h h1 h2
    simp only [if_neg c]
    have h44 : agree 44 d d' := h.mono (by split <;> omega)
    have hx : 44 ≤ d.length ∧ 44 ≤ d'.length := ⟨h44.1, h44.2.1⟩
    have hr : DownstreamPortContainment.RpExtensions.spec d =
        DownstreamPortContainment.RpExtensions.spec d' := by
      simp only [DownstreamPortContainment.RpExtensions.spec, ← el, ← ep]
      by_cases c5 : DownstreamPortContainment.logSize d < 5
      · simp only [show ¬ 5 ≤ DownstreamPortContainment.logSize d by omega,
          show ¬ 5 < DownstreamPortContainment.logSize d by omega, if_false]
        simp (disch := omega) only [h44.rd32, h44.rd32s]
      · simp only [c5, if_false] at h
        simp (disch := omega) only [h.rd32, h.rd32s]
    rw [hr]
    by_cases c5 : DownstreamPortContainment.logSize d < 5
    · simp only [show ¬ d.length < 8 by omega, show ¬ d'.length < 8 by omega,
        show ¬ d.length < 44 by omega, show ¬ d'.length < 44 by omega, if_false,
        show ¬ 5 ≤ DownstreamPortContainment.logSize d by omega,
        show ¬ 5 < DownstreamPortContainment.logSize d by omega, false_and]
    · simp only [c5, if_false] at h1 h2
      simp only [show ¬ d.length < 8 by omega, show ¬ d'.length < 8 by omega,
        show ¬ d.length < 44 by omega, show ¬ d'.length < 44 by omega, if_false,
        show ¬ d.length < 48 by omega, show ¬ d'.length < 48 by omega, and_false,
        show ¬ d.length < 48 + 4 * DownstreamPortContainment.prefixDwords d by omega,
        show ¬ d'.length < 48 + 4 * DownstreamPortContainment.prefixDwords d by omega]

theorem dvsec_same {n : Nat} {d d' : Bytes} (o : U16)
    (hn : max 10 (fld (rd32 d 4) 20 12 : U16).toNat ≤ n) (h : agree n d d') :
    sameKind n (wrap .DesignatedVendorSpecificExtendedCapability
        (.DesignatedVendorSpecificExtendedCapability o)
        (decodedDesignatedVendorSpecificExtendedCapability d))
      (wrap .DesignatedVendorSpecificExtendedCapability
        (.DesignatedVendorSpecificExtendedCapability o)
        (decodedDesignatedVendorSpecificExtendedCapability d')) := by
  have h1 := h.1
  have h2 := h.2.1
  have hm : agree 10 d d' := h.mono (by omega)
  have e : rd32 d 4 = rd32 d' 4 := hm.rd32 4 (by omega)
  have e8 : rd16 d 8 = rd16 d' 8 := hm.rd16 8 (by omega)
  have ht := h.take (fld (rd32 d 4) 20 12 : U16).toNat (by omega)
  unfold decodedDesignatedVendorSpecificExtendedCapability
    DesignatedVendorSpecificExtendedCapability.DvsecType.spec
    DesignatedVendorSpecificExtendedCapability.dvsecRegisters
    DesignatedVendorSpecificExtendedCapability.DesignatedVendorSpecificExtendedCapability.spec
  rw [← e, ← e8, ht]
  simp only [show ¬ d.length < 10 by omega, show ¬ d'.length < 10 by omega, if_false]
  by_cases c : (fld (rd32 d 4) 20 12 : U16).toNat < 10
  · simp only [c, true_or, if_true, wrap]
    exact And.intro rfl (And.intro rfl (And.intro rfl (And.intro rfl rfl)))
  · simp only [c, false_or, show ¬ d.length < (fld (rd32 d 4) 20 12 : U16).toNat by omega,
      show ¬ d'.length < (fld (rd32 d 4) 20 12 : U16).toNat by omega, if_false]
    split
    · rfl
    · exact sameError_refl _
    · rfl

theorem mfvc_same {n : Nat} {d d' : Bytes} (o : U16) (hn : mfvcSize d ≤ n) (h : agree n d d') :
    sameKind n (wrap .MultifunctionVirtualChannel (.MultifunctionVirtualChannel o)
        (decodedMultifunctionVirtualChannel d))
      (wrap .MultifunctionVirtualChannel (.MultifunctionVirtualChannel o)
        (decodedMultifunctionVirtualChannel d')) := by
  have h1 := h.1
  have h2 := h.2.1
  have h16 : 16 ≤ mfvcSize d := by unfold mfvcSize; simp only; split <;> omega
  have hm : agree 16 d d' := h.mono (by omega)
  have e8 : rd32 d 8 = rd32 d' 8 := hm.rd32 8 (by omega)
  have e12 : rd16 d 12 = rd16 d' 12 := hm.rd16 12 (by omega)
  have ht : MultifunctionVirtualChannel.vcTable d = MultifunctionVirtualChannel.vcTable d' := by
    unfold MultifunctionVirtualChannel.vcTable
    unfold mfvcSize at hn
    rw [← e8, ← e12]
    simp only at hn ⊢
    generalize (fld (rd32 d 8) 24 8 : U8).toNat = f at *
    generalize VirtualChannel.vcPhases (fld (rd16 d 12) 1 3) / 2 = l at *
    by_cases c0 : f = 0
    · simp only [c0, if_true]
    by_cases c1 : f = 1
    · simp only [c1, if_true]
    have hn : 16 * f + l ≤ n := by split at hn <;> omega
    have := (h.drop (16 * f) (by omega)).take l (by omega)
    simp only [c0, c1, show ¬ d.length < 16 * f by omega, show ¬ d'.length < 16 * f by omega,
      show ¬ d.length < 16 * f + l by omega, show ¬ d'.length < 16 * f + l by omega, if_false, this]
  unfold decodedMultifunctionVirtualChannel
  simp only [show ¬ d.length < 16 by omega, show ¬ d'.length < 16 by omega, if_false]
  rw [ht]
  cases MultifunctionVirtualChannel.vcTable d' with
  | ok t =>
    refine And.intro ?_ h
    frame hm [MultifunctionVirtualChannel.MultifunctionVirtualChannel.spec]
  | err e => rfl
  | panic => rfl

theorem tph_same {n : Nat} {d d' : Bytes} (hn : tphSize d ≤ n) (h : agree n d d') :
    sameTph n (.spec d) (.spec d') := by
  have h1 := h.1
  have h2 := h.2.1
  have h8 : 8 ≤ n := by unfold tphSize at hn; simp only at hn; split at hn <;> omega
  have hm : agree 8 d d' := h.mono (by omega)
  have e0 : rd32 d 0 = rd32 d' 0 := hm.rd32 0 (by omega)
  have e4 : rd32 d 4 = rd32 d' 4 := hm.rd32 4 (by omega)
  refine And.intro ?_ (And.intro ?_ ?_)
  · simp only [TphRequester.TphRequester.spec, e4]
  · simp only [TphRequester.TphRequester.spec, e0]
  unfold tphSize at hn
  simp only [TphRequester.TphRequester.spec, ← e0] at hn ⊢
  generalize (fld (rd32 d 0) 9 2 : U8) = loc at *
  generalize (fld (rd32 d 0) 16 11 : U16) = size at *
  have hd := h.drop 8 (by omega)
  by_cases c0 : loc = 0
  · subst c0; simp [TphRequester.StTable.spec, pick]
  by_cases c1 : loc = 1
  · subst c1
    simp only [TphRequester.StTable.spec, pick, BitVec.reduceEq, if_false, if_true, true_and,
      List.length_drop] at hn ⊢
    by_cases c : size.toNat + 1 ≤ 64
    · rw [if_pos c] at hn
      simp only [c, true_and, show 2 * (size.toNat + 1) ≤ d.length - 8 by omega,
        show 2 * (size.toNat + 1) ≤ d'.length - 8 by omega, if_true]
      rw [hd.take _ (by omega)]
    · simp only [c, false_and, if_false]
      exact And.intro trivial hd
  by_cases c2 : loc = 2
  · subst c2; simp [TphRequester.StTable.spec, pick]
  · simp only [TphRequester.StTable.spec, pick, c0, c1, c2, if_false]

theorem vsec_same {d d' : Bytes} (h : agree (max 4 ((fld (rd32 d 0) 20 12 : U16).toNat - 4)) d d') :
    VendorSpecificExtendedCapability.VsecRegisters.spec d = .spec d' := by
  have h1 := h.1
  have h2 := h.2.1
  have e0 : rd32 d 0 = rd32 d' 0 := h.rd32 0 (by omega)
  simp only [VendorSpecificExtendedCapability.VsecRegisters.spec,
    VendorSpecificExtendedCapability.VsecHeader.spec, ← e0]
  by_cases c : (fld (rd32 d 0) 20 12 : U16).toNat < 8
  · simp only [c, if_true]
  · simp only [c, if_false, show (fld (rd32 d 0) 20 12 : U16).toNat ≤ 4 + d.length by omega,
      show (fld (rd32 d 0) 20 12 : U16).toNat ≤ 4 + d'.length by omega, if_true]
    rw [h.take _ (by omega)]

end ExtendedCapabilities
end Pcics
