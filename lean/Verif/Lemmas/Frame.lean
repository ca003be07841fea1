import Verif.Spec.Frame
import Verif.Lemmas.Capabilities
/- Lemmas for Props/Frame.lean: specifications depend on the bytes of the structure only. -/

namespace Pcics
open Spec

theorem agree.mono {m n : Nat} {d d' : Bytes} (h : agree n d d') (hm : m ≤ n) : agree m d d' :=
  ⟨by have := h.1; omega, by have := h.2.1; omega, fun i hi => h.2.2 i (by omega)⟩

theorem agree.symm {n : Nat} {d d' : Bytes} (h : agree n d d') : agree n d' d :=
  ⟨h.2.1, h.1, fun i hi => (h.2.2 i hi).symm⟩

theorem agree.byteAt {n : Nat} {d d' : Bytes} (h : agree n d d') (i : Nat) (hi : i + 1 ≤ n) :
    byteAt d i = byteAt d' i := h.2.2 i (by omega)

theorem agree.rd16 {n : Nat} {d d' : Bytes} (h : agree n d d') (i : Nat) (hi : i + 2 ≤ n) :
    rd16 d i = rd16 d' i := by
  simp only [Spec.rd16, h.2.2 i (by omega), h.2.2 (i + 1) (by omega)]

theorem agree.rd32 {n : Nat} {d d' : Bytes} (h : agree n d d') (i : Nat) (hi : i + 4 ≤ n) :
    rd32 d i = rd32 d' i := by
  simp only [Spec.rd32, h.2.2 i (by omega), h.2.2 (i + 1) (by omega), h.2.2 (i + 2) (by omega),
    h.2.2 (i + 3) (by omega)]

theorem agree.rd64 {n : Nat} {d d' : Bytes} (h : agree n d d') (i : Nat) (hi : i + 8 ≤ n) :
    rd64 d i = rd64 d' i := by
  simp only [Spec.rd64, h.2.2 i (by omega), h.2.2 (i + 1) (by omega), h.2.2 (i + 2) (by omega),
    h.2.2 (i + 3) (by omega), h.2.2 (i + 4) (by omega), h.2.2 (i + 5) (by omega),
    h.2.2 (i + 6) (by omega), h.2.2 (i + 7) (by omega)]

theorem agree.drop {n : Nat} {d d' : Bytes} (h : agree n d d') (k : Nat) (hk : k ≤ n) :
    agree (n - k) (d.drop k) (d'.drop k) := by
  refine ⟨?_, ?_, fun i hi => ?_⟩
  · rw [List.length_drop]; have := h.1; omega
  · rw [List.length_drop]; have := h.2.1; omega
  · rw [byteAt_drop, byteAt_drop]; exact h.2.2 _ (by omega)

theorem agree.take {n : Nat} {d d' : Bytes} (h : agree n d d') (m : Nat) (hm : m ≤ n) :
    d.take m = d'.take m := by
  apply List.ext_getElem?
  intro i
  simp only [List.getElem?_take]
  by_cases hi : i < m
  · simp only [hi, if_true]
    have h1 := h.1
    have h2 := h.2.1
    have := h.2.2 i (by omega)
    simp only [Spec.byteAt, List.getD_eq_getElem?_getD, List.getElem?_eq_getElem (show i < d.length by omega),
      List.getElem?_eq_getElem (show i < d'.length by omega), Option.getD_some] at this ⊢
    rw [this]
  · simp [hi]

/-- Rewrites reads of `d` into reads of `d'`. -/
macro "frame" h:ident "[" ds:Lean.Parser.Tactic.simpLemma,* "]" : tactic =>
  `(tactic| simp (disch := omega) only [$ds,*, agree.byteAt $h, agree.rd16 $h, agree.rd32 $h,
      agree.rd64 $h])

theorem plain_same {n : Nat} {d d' : Bytes} (h : agree n d d') (p : U8) (name : String)
    (k k' : CapabilityKind) (hk : k = k') : plainKind p d name n k = plainKind p d' name n k' := by
  have h1 := h.1
  have h2 := h.2.1
  simp only [plainKind, h1, h2, if_true, hk]

theorem agp_same {d d' : Bytes} (h : agree 32 d d') :
    AcceleratedGraphicsPort.AcceleratedGraphicsPort.spec d = .spec d' := by
  have h1 := h.1
  have h2 := h.2.1
  simp (disch := omega) only [AcceleratedGraphicsPort.AcceleratedGraphicsPort.spec, agree.rd16 h,
    agree.rd32 h, show 14 ≤ d.length by omega, show 14 ≤ d'.length by omega,
    show 18 ≤ d.length by omega, show 18 ≤ d'.length by omega, show 20 ≤ d.length by omega,
    show 20 ≤ d'.length by omega, show 22 ≤ d.length by omega, show 22 ≤ d'.length by omega,
    show 26 ≤ d.length by omega, show 26 ≤ d'.length by omega, show 30 ≤ d.length by omega,
    show 30 ≤ d'.length by omega, h1, h2]

theorem msi_same {d d' : Bytes} (p : U8)
    (h : agree (MessageSignaledInterrups.MessageSignaledInterrups.specSize
      (flag (rd16 d 0) 7) (flag (rd16 d 0) 8)) d d') : msiKind p d = msiKind p d' := by
  have e : rd16 d 0 = rd16 d' 0 := h.rd16 0 (by unfold MessageSignaledInterrups.MessageSignaledInterrups.specSize; omega)
  have h1 := h.1
  have h2 := h.2.1
  simp only [msiKind]
  rw [e] at h h1 h2 ⊢
  generalize flag (rd16 d' 0) 7 = a at *
  generalize flag (rd16 d' 0) 8 = b at *
  have l : 10 ≤ MessageSignaledInterrups.MessageSignaledInterrups.specSize a b := by
    unfold MessageSignaledInterrups.MessageSignaledInterrups.specSize; omega
  rw [if_neg (by omega), if_neg (by omega), if_neg (by omega), if_neg (by omega)]
  congr 2
  unfold MessageSignaledInterrups.MessageSignaledInterrups.specSize at h
  cases a <;> cases b <;> simp only [Bool.false_eq_true, if_true, if_false, Nat.reduceAdd] at h <;>
    frame h [MessageSignaledInterrups.MessageSignaledInterrups.spec, Bool.false_eq_true, if_true,
      if_false, Nat.reduceAdd]

theorem pcix_same {d d' : Bytes} (b : Bool) (p : U8) (h : agree (pciXSize b d) d d') :
    pciXKind b p d = pciXKind b p d' := by
  have e : rd16 d 0 = rd16 d' 0 := h.rd16 0 (by simp only [pciXSize]; split <;> omega)
  have h1 := h.1
  have h2 := h.2.1
  have hv : ∀ v : U8, v = 1 ∨ v = 2 ∨ (v ≠ 1 ∧ v ≠ 2) := by decide +kernel
  simp only [pciXKind, pciXSize, PciX.PciX.spec, PciX.PciXBridge.spec, PciX.Ecc.spec, e] at h h1 h2 ⊢
  generalize hw : (fld (rd16 d' 0) 12 2 : U8) = v at *
  rcases hv v with rfl | rfl | ⟨n1, n2⟩ <;> cases b
  case' inr.inr.true | inr.inr.false => simp only [pick, n1, n2, Bool.false_eq_true, if_true, if_false, Nat.reduceAdd, false_and, Nat.add_zero] at h h1 h2 ⊢
  all_goals
    try simp only [pick, Bool.false_eq_true, if_true, if_false, Nat.reduceAdd, true_and, false_and, BitVec.reduceEq] at h h1 h2 ⊢
  all_goals
    try simp only [show ¬ d.length < 6 by omega, show ¬ d'.length < 6 by omega, if_false]
    try simp only [show ¬ d.length < 14 by omega, show ¬ d'.length < 14 by omega, if_false]
    try simp only [show ¬ d.length < 22 by omega, show ¬ d'.length < 22 by omega, if_false]
    try simp only [show ¬ d.length < 30 by omega, show ¬ d'.length < 30 by omega, if_false]
    frame h [pick]

theorem ht_same {d d' : Bytes} (p : U8) (h : agree (hypertransportSize d) d d') :
    hypertransportKind p d = hypertransportKind p d' := by
  have hs : 2 ≤ hypertransportSize d := by
    simp only [hypertransportSize]; repeat' split
    all_goals omega
  have e : rd16 d 0 = rd16 d' 0 := h.rd16 0 hs
  have e0 : byteAt d 0 = byteAt d' 0 := h.byteAt 0 (by omega)
  have h1 := h.1
  have h2 := h.2.1
  simp only [hypertransportKind]
  rw [if_neg (by omega), if_neg (by omega), e]
  simp only [hypertransportSize, e] at h h1 h2
  simp only [Hypertransport.blockSpec, e0]
  generalize (fld (rd16 d' 0) 11 5 : U8) = t at *
  by_cases c0 : (fld t 2 3 : U8) = 0
  · simp only [c0, if_true] at h h1 h2 ⊢
    simp only [h1, h2, if_true]
    frame h [Hypertransport.SlaveOrPrimaryInterface.spec]
  by_cases c1 : (fld t 2 3 : U8) = 1
  · simp only [c1, if_true, BitVec.reduceEq, if_false] at h h1 h2 ⊢
    simp only [h1, h2, if_true]
    frame h [Hypertransport.HostOrSecondaryInterface.spec]
  by_cases c2 : t = 0b10101
  · subst c2
    simp only [c0, c1, if_false, if_true] at h h1 h2 ⊢
    simp only [h1, h2, if_true]
    frame h [Hypertransport.MsiMapping.spec]
  · simp only [c0, c1, c2, if_false]

theorem vendor_same {d d' : Bytes} (v dev : U16) (p : U8)
    (h : agree (max 1 ((byteAt d 0).toNat - 2)) d d') :
    vendorSpecificKind v dev p d = vendorSpecificKind v dev p d' := by
  have e0 : byteAt d 0 = byteAt d' 0 := h.byteAt 0 (by omega)
  have h1 := h.1
  have h2 := h.2.1
  have hp : 3 ≤ (byteAt d 0).toNat → VendorSpecific.payload d = VendorSpecific.payload d' := by
    intro h3
    simp only [VendorSpecific.payload, ← e0]
    exact (h.drop 1 (by omega)).take _ (by omega)
  have n1 : d ≠ [] := by rintro rfl; simp at h1
  have n2 : d' ≠ [] := by rintro rfl; simp at h2
  simp only [vendorSpecificKind, n1, n2, if_false, ← e0]
  by_cases c : (byteAt d 0).toNat < 3
  · simp only [c, true_or, if_true]
  · rw [hp (by omega)]
    simp only [c, false_or, show ¬ d.length + 2 < (byteAt d 0).toNat by omega,
      show ¬ d'.length + 2 < (byteAt d 0).toNat by omega]

theorem pcie_same {d d' : Bytes} (p : U8) (h : agree (max (pcieSize d) 26) d d') :
    pciExpressKind p d = pciExpressKind p d' := by
  have e : rd16 d 0 = rd16 d' 0 := h.rd16 0 (by omega)
  have h1 := h.1
  have h2 := h.2.1
  simp only [pciExpressKind, PciExpress.needsRoot, PciExpress.PciExpress.spec,
    PciExpress.DeviceType.spec, PciExpress.presentV2, pcieSize, e] at h h1 h2 ⊢
  rw [if_neg (show ¬ d.length < 26 by omega), if_neg (show ¬ d'.length < 26 by omega)]
  have hd : PciExpress.Device.spec d = PciExpress.Device.spec d' := by
    frame h [PciExpress.Device.spec]
  have hl : PciExpress.Link.spec d = PciExpress.Link.spec d' := by frame h [PciExpress.Link.spec]
  have hs : PciExpress.Slot.spec d = PciExpress.Slot.spec d' := by frame h [PciExpress.Slot.spec]
  rw [hd, hl, hs]
  by_cases hv : 2 ≤ (fld (rd16 d' 0) 0 4 : U8).toNat
  · simp only [hv, if_true, Nat.max_def] at h h1 h2 ⊢
    norm_num at h h1 h2
    have hr : PciExpress.Root.spec d = PciExpress.Root.spec d' := by frame h [PciExpress.Root.spec]
    have hl2 : PciExpress.Link2.spec d = PciExpress.Link2.spec d' := by
      frame h [PciExpress.Link2.spec]
    have hd2 : PciExpress.Device2.spec d = PciExpress.Device2.spec d' := by
      frame h [PciExpress.Device2.spec]
    simp only [hr, hl2, hd2, PciExpress.present, show ¬ d.length < 34 by omega,
      show ¬ d'.length < 34 by omega, show 34 ≤ d.length by omega, show 34 ≤ d'.length by omega,
      show 42 ≤ d.length by omega, show 42 ≤ d'.length by omega,
      show 50 ≤ d.length by omega, show 50 ≤ d'.length by omega, h1, h2]
  · simp only [hv, if_false] at h h1 h2 ⊢
    generalize (fld (rd16 d' 0) 4 4 : U8) = t at *
    by_cases t0 : t = 0
    · subst t0; simp [pick]
    by_cases t1 : t = 1
    · subst t1; simp [pick]
    by_cases t5 : t = 5
    · subst t5; simp [pick]
    by_cases t6 : t = 6
    · subst t6; simp [pick]
    by_cases t7 : t = 7
    · subst t7; simp [pick]
    by_cases t8 : t = 8
    · subst t8; simp [pick]
    by_cases t9 : t = 9
    · subst t9; simp [pick]
    have h34 : agree 34 d d' := h.mono (by
      simp only [pick, t0, t1, t5, t6, t7, t8, t9, if_false]; split <;> [skip; split] <;> omega)
    have l1 := h34.1
    have l2 := h34.2.1
    have hr : PciExpress.Root.spec d = PciExpress.Root.spec d' := by
      frame h34 [PciExpress.Root.spec]
    simp only [hr, PciExpress.present, l1, l2, show ¬ d.length < 34 by omega,
      show ¬ d'.length < 34 by omega]

theorem entries_same (real : Bool) (fuel : Nat) (c : U8) (d d' : Bytes)
    (h : agree (entriesSpan real c.toNat d) d d') :
    (EnhancedAllocation.EnhancedAllocationEntries.mk d c).collect real fuel =
      (EnhancedAllocation.EnhancedAllocationEntries.mk d' c).collect real fuel := by
  induction fuel generalizing c d d' with
  | zero => rfl
  | succ n ih =>
    rw [EnhancedAllocation.EnhancedAllocationEntries.collect,
      EnhancedAllocation.EnhancedAllocationEntries.collect, EnhancedAllocation.ea_next,
      EnhancedAllocation.ea_next]
    by_cases hc : c = 0
    · simp [hc, Res.bind_ok]
    obtain ⟨k, hk⟩ : ∃ k, c.toNat = k + 1 := by
      refine ⟨c.toNat - 1, ?_⟩
      have : c.toNat ≠ 0 := fun h0 => hc (BitVec.eq_of_toNat_eq (by simpa using h0))
      omega
    have hk' : (c - 1).toNat = k := by
      have := c.isLt
      rw [BitVec.toNat_sub]; simp; omega
    rw [hk, entriesSpan] at h
    have hb : 12 ≤ EnhancedAllocation.entryBytes d := by
      unfold EnhancedAllocation.entryBytes; omega
    have h12 : agree 12 d d' := h.mono (by omega)
    have he : EnhancedAllocation.entryBytes d = EnhancedAllocation.entryBytes d' := by
      frame h12 [EnhancedAllocation.entryBytes]
    have hst : EnhancedAllocation.entryStep real d = EnhancedAllocation.entryStep real d' := by
      unfold EnhancedAllocation.entryStep; rw [he, h12.rd32 0 (by omega)]
    have hsp : EnhancedAllocation.EnhancedAllocationEntry.spec d =
        EnhancedAllocation.EnhancedAllocationEntry.spec d' := by
      have hbb : agree (EnhancedAllocation.entryBytes d) d d' := h.mono (by omega)
      unfold EnhancedAllocation.entryBytes at hbb
      simp only [EnhancedAllocation.EnhancedAllocationEntry.spec, h12.rd32 0 (by omega),
        h12.rd32 4 (by omega), h12.rd32 8 (by omega)] at hbb ⊢
      generalize flag (Spec.rd32 d' 4) 1 = x at *
      generalize flag (Spec.rd32 d' 8) 1 = y at *
      cases x <;> cases y <;>
        simp only [Bool.false_eq_true, if_true, if_false, Nat.reduceAdd, Nat.add_zero] at hbb ⊢ <;>
        try frame hbb [pick]
    have l1 := h.1
    have l2 := h.2.1
    have f1 : EnhancedAllocation.entryFits real d := ⟨by omega, by omega, by omega⟩
    have f2 : EnhancedAllocation.entryFits real d' := ⟨by omega, by omega, by omega⟩
    have hr : agree (entriesSpan real (c - 1).toNat
        (d.drop (EnhancedAllocation.entryStep real d)))
        (d.drop (EnhancedAllocation.entryStep real d))
        (d'.drop (EnhancedAllocation.entryStep real d')) := by
      rw [hk', ← hst]
      exact (h.drop _ (by omega)).mono (by omega)
    simp only [hc, f1, f2, if_true, false_or, show ¬ d.length < 12 by omega,
      show ¬ d'.length < 12 by omega, if_false, hsp, Res.bind_ok]
    rw [ih _ _ _ hr]

theorem ea_same {d d' : Bytes} (real b : Bool) (p : U8)
    (h : agree (enhancedAllocationSize real b d) d d') :
    sameKind real (enhancedAllocationKind b p d) (enhancedAllocationKind b p d') := by
  have h1 := h.1
  have h2 := h.2.1
  have hle : (if b then 6 else 2) ≤ enhancedAllocationSize real b d := by
    simp only [enhancedAllocationSize]; omega
  have e0 : byteAt d 0 = byteAt d' 0 := h.byteAt 0 (by split at hle <;> omega)
  have hd := h.drop (if b then 6 else 2) hle
  have hs : ∀ fuel, (EnhancedAllocation.EnhancedAllocationEntries.mk (d.drop (if b then 6 else 2))
      (fld (Spec.byteAt d 0) 0 6)).collect real fuel =
      (EnhancedAllocation.EnhancedAllocationEntries.mk (d'.drop (if b then 6 else 2))
        (fld (Spec.byteAt d 0) 0 6)).collect real fuel := fun fuel =>
    entries_same real fuel _ _ _ (hd.mono (by simp only [enhancedAllocationSize]; omega))
  cases b <;>
    simp only [enhancedAllocationKind, ← e0, Bool.false_eq_true, if_true, if_false] at hle hs ⊢
  · simp only [show ¬ d.length < 2 by omega, show ¬ d'.length < 2 by omega, if_false]
    exact And.intro rfl (And.intro rfl hs)
  · simp only [show ¬ d.length < 6 by omega, show ¬ d'.length < 6 by omega, if_false,
      h.byteAt 2 (by omega), h.byteAt 3 (by omega)]
    exact And.intro rfl (And.intro rfl hs)

end Pcics
