import Verif.Lemmas.Frame
import Verif.Props.Capabilities
/- A capability is decoded from the bytes of its own structure. -/

namespace Pcics.Frame
open Spec

theorem same_refl (real : Bool) (k : CapabilityKind) : k.same real k := by
  cases k <;> first | rfl | exact And.intro rfl (And.intro rfl fun _ => rfl)

theorem sameKind_of_eq (real : Bool) {x y : Res CapabilityError CapabilityKind} (h : x = y) :
    sameKind real x y := by
  subst h
  cases x with
  | ok k => exact same_refl real k
  | err e => rfl
  | panic => rfl

/-- C77: data agreeing in the bytes the structure consists of is decoded to the same kind, or fails
in the same way, whatever follows.  Partial: for AGP this is proved with the registers of revision 3
counted into every structure, for PCI Express with the slot registers counted in; see
`agp_takes_foreign_bytes` and `pcie_v1_needs_foreign_bytes`. -/
theorem cap_frame_partial (real : Bool) (h : Header.Header) (p id : U8) (d d' : Bytes)
    (ha : agree (readSize real h id d) d d') :
    sameKind real (decodeKind h p id d) (decodeKind h p id d') := by
  rw [decodeKind_eq, decodeKind_eq]
  unfold readSize structSize at ha
  simp only [kindSpec]
  by_cases i0 : id = 0x14
  · subst i0
    simp only [pick, BitVec.reduceEq, if_true, if_false] at ha ⊢
    exact ea_same real _ p (ha.mono (by omega))
  apply sameKind_of_eq
  by_cases i : id = 0x01
  · subst i; simp only [pick, BitVec.reduceEq, if_true, if_false] at ha ⊢
    have ha : agree 6 d d' := ha
    exact plain_same ha _ _ _ _ (by frame ha [PowerManagementInterface.PowerManagementInterface.spec])
  by_cases i : id = 0x02
  · subst i; simp only [pick, BitVec.reduceEq, if_true, if_false] at ha ⊢
    have ha : agree 32 d d' := ha.mono (by omega)
    exact plain_same (ha.mono (by omega)) _ _ _ _ (by rw [agp_same ha])
  by_cases i : id = 0x03
  · subst i; simp only [pick, BitVec.reduceEq, if_true, if_false] at ha ⊢
    have ha : agree 6 d d' := ha
    exact plain_same ha _ _ _ _ (by frame ha [VitalProductData.spec])
  by_cases i : id = 0x04
  · subst i; simp only [pick, BitVec.reduceEq, if_true, if_false] at ha ⊢
    have ha : agree 2 d d' := ha
    exact plain_same ha _ _ _ _ (by frame ha [SlotIdentification.spec])
  by_cases i : id = 0x05
  · subst i; simp only [pick, BitVec.reduceEq, if_true, if_false] at ha ⊢
    exact msi_same p (ha.mono (by omega))
  by_cases i : id = 0x07
  · subst i; simp only [pick, BitVec.reduceEq, if_true, if_false] at ha ⊢
    exact pcix_same _ p (ha.mono (by omega))
  by_cases i : id = 0x08
  · subst i; simp only [pick, BitVec.reduceEq, if_true, if_false] at ha ⊢
    exact ht_same p (ha.mono (by omega))
  by_cases i : id = 0x09
  · subst i; simp only [pick, BitVec.reduceEq, if_true, if_false] at ha ⊢
    exact vendor_same _ _ p (ha.mono (by omega))
  by_cases i : id = 0x0a
  · subst i; simp only [pick, BitVec.reduceEq, if_true, if_false] at ha ⊢
    have ha : agree 2 d d' := ha
    exact plain_same ha _ _ _ _ (by frame ha [DebugPort.spec])
  by_cases i : id = 0x0d
  · subst i; simp only [pick, BitVec.reduceEq, if_true, if_false] at ha ⊢
    have ha : agree 6 d d' := ha
    exact plain_same ha _ _ _ _ (by frame ha [BridgeSubsystemVendorId.spec])
  by_cases i : id = 0x10
  · subst i; simp only [pick, BitVec.reduceEq, if_true, if_false] at ha ⊢
    exact pcie_same p (ha.mono (by omega))
  by_cases i : id = 0x11
  · subst i; simp only [pick, BitVec.reduceEq, if_true, if_false] at ha ⊢
    have ha : agree 10 d d' := ha
    exact plain_same ha _ _ _ _ (by frame ha [MsiX.MsiX.spec])
  by_cases i : id = 0x12
  · subst i; simp only [pick, BitVec.reduceEq, if_true, if_false] at ha ⊢
    have ha : agree 6 d d' := ha
    exact plain_same ha _ _ _ _ (by frame ha [Sata.spec])
  by_cases i : id = 0x13
  · subst i; simp only [pick, BitVec.reduceEq, if_true, if_false] at ha ⊢
    have ha : agree 4 d d' := ha
    exact plain_same ha _ _ _ _ (by frame ha [AdvancedFeatures.spec])
  by_cases i : id = 0x15
  · subst i; simp only [pick, BitVec.reduceEq, if_true, if_false] at ha ⊢
    have ha : agree 34 d d' := ha
    exact plain_same ha _ _ _ _ (by frame ha [FlatteningPortalBridge.FlatteningPortalBridge.spec])
  simp only [pick, *, if_false]

/-- The hypothesis is met: an MSI structure of 14 register bytes followed by different bytes. -/
example : agree (readSize false (sampleHeader 0x40) 0x05
      [0x80, 0x00, 1, 2, 3, 4, 5, 6, 7, 8, 9, 10, 0, 0, 0xaa])
    [0x80, 0x00, 1, 2, 3, 4, 5, 6, 7, 8, 9, 10, 0, 0, 0xaa]
    [0x80, 0x00, 1, 2, 3, 4, 5, 6, 7, 8, 9, 10, 0, 0, 0x10, 0x20] := by decide +kernel

/-- And an Enhanced Allocation structure with one 32-bit entry. -/
example : agree (readSize false (sampleHeader 0x40) 0x14
      [0x01, 0x00, 0x02, 0, 0, 0x80, 0, 0, 0, 0xfe, 0xfc, 0xff, 0, 0, 0xaa])
    [0x01, 0x00, 0x02, 0, 0, 0x80, 0, 0, 0, 0xfe, 0xfc, 0xff, 0, 0, 0xaa]
    [0x01, 0x00, 0x02, 0, 0, 0x80, 0, 0, 0, 0xfe, 0xfc, 0xff, 0, 0] := by decide +kernel

/-- C77: two regions that agree in the structures a walk of the first one visits (id, next pointer
and registers) are walked alike: same pointers, same kinds or failures.  Bytes outside of the visited
structures do not matter.  Partial as `cap_frame_partial`. -/
theorem cap_walk_frame_partial (real : Bool) (h : Header.Header) (d d' : Bytes) (ps : List U8) (q : U8)
    (hc : CapChain d h.capabilities_pointer ps q)
    (hs : ∀ p ∈ ps, agree (readSize real h (capId d p) (capData d p) + 2)
      (d.drop (p.toNat - 0x40)) (d'.drop (p.toNat - 0x40))) :
    CapChain d' h.capabilities_pointer ps q ∧
    ∀ k, k < ps.length → ∃ a b, (Capabilities.new d h).item k = some a ∧
      (Capabilities.new d' h).item k = some b ∧ sameItem real a b := by
  have key : ∀ p ∈ ps, capFits d p → capFits d' p ∧ capId d p = capId d' p ∧
      capNext d p = capNext d' p ∧ agree (readSize real h (capId d p) (capData d p))
        (capData d p) (capData d' p) := by
    intro p hp hf
    have ha := hs p hp
    have h40 := hf.1
    refine ⟨⟨h40, ?_⟩, ?_, ?_, ?_⟩
    · have := ha.2.1
      rw [List.length_drop] at this
      have := hf.2
      omega
    · have := ha.byteAt 0 (by omega)
      rwa [byteAt_drop, byteAt_drop] at this
    · have := ha.byteAt 1 (by omega)
      rw [byteAt_drop, byteAt_drop] at this
      unfold capNext
      rwa [show p.toNat + 1 - 0x40 = p.toNat - 0x40 + 1 by omega]
    · have := ha.drop 2 (by omega)
      rw [List.drop_drop, List.drop_drop, Nat.add_sub_cancel,
        show p.toNat - 0x40 + 2 = p.toNat + 2 - 0x40 by omega] at this
      exact this
  have chain : ∀ {p : U8} {ps : List U8} {q : U8}, CapChain d p ps q →
      (∀ p ∈ ps, capFits d p → capFits d' p ∧ capNext d p = capNext d' p) →
      CapChain d' p ps q := by
    intro p ps q hc
    induction hc with
    | stop p => intro _; exact .stop p
    | step fits rest ih =>
      intro hk
      have := hk _ (List.mem_cons_self ..) fits
      refine .step this.1 ?_
      rw [← this.2]
      exact ih fun p hp => hk p (List.mem_cons_of_mem _ hp)
  have hc' := chain hc fun p hp hf => ⟨(key p hp hf).1, (key p hp hf).2.2.1⟩
  refine ⟨hc', fun k hk => ?_⟩
  have hget := List.getElem?_eq_getElem hk
  refine ⟨_, _, cap_walk d h ps q hc k _ hget, cap_walk d' h ps q hc' k _ hget, ?_⟩
  obtain ⟨_, hf, _⟩ := chain_take hc k _ hget
  obtain ⟨_, hid, _, ha⟩ := key _ (List.getElem_mem hk) hf
  have hfr := cap_frame_partial real h ps[k] (capId d ps[k]) _ _ ha
  rw [decodeKind_eq, decodeKind_eq] at hfr
  unfold capItem
  rw [← hid]
  generalize kindSpec h ps[k] (capId d ps[k]) (capData d ps[k]) = x at *
  generalize kindSpec h ps[k] (capId d ps[k]) (capData d' ps[k]) = y at *
  cases x <;> cases y <;> simp only [sameKind, reduceCtorEq] at hfr
  · exact And.intro rfl hfr
  · rw [hfr]; rfl
  · rfl

/-- The hypotheses are met by the sample region and one that differs in a byte between the
structures and in its length. -/
example : CapChain sampleRegion 0x80 [0x80, 0x70] 0xa8 ∧
    (∀ p ∈ ([0x80, 0x70] : List U8), agree (readSize false (sampleHeader 0x80)
        (capId sampleRegion p) (capData sampleRegion p) + 2)
      (sampleRegion.drop (p.toNat - 0x40))
      ((sampleRegion.set 0x39 0xff ++ [1, 2, 3]).drop (p.toNat - 0x40))) ∧
    sampleRegion.set 0x39 0xff ≠ sampleRegion :=
  ⟨.step (by decide) (.step (by decide) (.stop _)), by decide +kernel, by decide +kernel⟩

/-- C77 (the code violates it): the bytes following an AGP structure are taken for registers of
revision 3 even if the structure is of an earlier revision: each of them changes what is decoded. -/
theorem agp_takes_foreign_bytes (h : Header.Header) (p : U8) (d e : Bytes) (hd : d.length = 10)
    (he : 8 ≤ e.length) :
    ∃ v w, decodeKind h p 0x02 d = .ok (.AcceleratedGraphicsPort v) ∧
      decodeKind h p 0x02 (d ++ e) = .ok (.AcceleratedGraphicsPort w) ∧
      v.control = none ∧ w.control = some (.spec (rd32 e 4)) := by
  refine ⟨.spec d, .spec (d ++ e), ?_, ?_, ?_, ?_⟩
  · rw [decodeKind_eq]
    simp only [kindSpec, pick, plainKind, BitVec.reduceEq, if_true, if_false, hd, Nat.le_refl]
  · rw [decodeKind_eq]
    simp only [kindSpec, pick, plainKind, BitVec.reduceEq, if_true, if_false, List.length_append, hd,
      Nat.le_add_right]
  · simp [AcceleratedGraphicsPort.AcceleratedGraphicsPort.spec, hd]
  · have : rd32 (d ++ e) 14 = rd32 e 4 := by
      have hb : ∀ i, byteAt (d ++ e) (10 + i) = byteAt e i := by
        intro i
        rw [← byteAt_drop, List.drop_left' hd]
      simp only [rd32, hb 4, hb 5, hb 6, hb 7, show (14 : Nat) = 10 + 4 by rfl, Nat.add_assoc,
        Nat.reduceAdd, hb]
    simp [AcceleratedGraphicsPort.AcceleratedGraphicsPort.spec, hd, this]
    omega

/-- C77 (the code violates it): a complete version 1 endpoint structure at the end of the region
(18 to 25 register bytes) is rejected, with any 8 bytes behind it it is decoded. -/
theorem pcie_v1_needs_foreign_bytes (h : Header.Header) (p : U8) (d e : Bytes)
    (hv : (fld (rd16 d 0) 0 4 : U8) = 1) (ht : (fld (rd16 d 0) 4 4 : U8) = 0)
    (h18 : 18 ≤ d.length) (h26 : d.length < 26) (he : 8 ≤ e.length) :
    pcieSize d ≤ d.length ∧ decodeKind h p 0x10 d = .err (.PciExpress p .RequiredBytesSlice) ∧
      ∃ v, decodeKind h p 0x10 (d ++ e) = .ok (.PciExpress v) := by
  refine ⟨?_, ?_, ?_⟩
  · simp [pcieSize, hv, ht, pick, h18]
  · rw [decodeKind_eq]
    simp only [kindSpec, pick, pciExpressKind, BitVec.reduceEq, if_true, if_false, h26]
  · have hr : rd16 (d ++ e) 0 = rd16 d 0 := by
      simp only [rd16, byteAt, List.getD_eq_getElem?_getD]
      rw [List.getElem?_append_left (by omega), List.getElem?_append_left (by omega)]
    refine ⟨.spec (d ++ e), ?_⟩
    rw [decodeKind_eq]
    simp only [kindSpec, pick, pciExpressKind, BitVec.reduceEq, if_true, if_false,
      PciExpress.needsRoot, hr, ht, List.length_append]
    rw [if_neg (by omega)]
    simp

/-- A version 1 endpoint with 18 register bytes. -/
example : (fld (rd16 ([0x01, 0x00] ++ List.replicate 16 0) 0) 0 4 : U8) = 1 ∧
    (fld (rd16 ([0x01, 0x00] ++ List.replicate 16 0) 0) 4 4 : U8) = 0 := by decide

/-- C77: that is all the bytes behind a PCI Express structure are needed for: once there are enough of
them, what is decoded depends on the structure only. -/
theorem pcie_own (h : Header.Header) (p : U8) (d d' : Bytes) (ha : agree (pcieSize d) d d')
    (h1 : 26 ≤ d.length) (h2 : 26 ≤ d'.length) :
    decodeKind h p 0x10 d = decodeKind h p 0x10 d' := by
  rw [decodeKind_eq, decodeKind_eq]
  simp only [kindSpec, pick, BitVec.reduceEq, if_true, if_false]
  by_cases hs : 26 ≤ pcieSize d
  · exact pcie_same p (by rwa [Nat.max_eq_left hs])
  · have hv : ¬ 2 ≤ (fld (rd16 d 0) 0 4 : U8).toNat := by
      intro hv; simp only [pcieSize, hv, if_true] at hs; omega
    have h10 : agree 10 d d' := ha.mono (by
      simp only [pcieSize, hv, if_false, pick]; (repeat' split) <;> omega)
    have e : rd16 d 0 = rd16 d' 0 := h10.rd16 0 (by omega)
    have hd : PciExpress.Device.spec d = PciExpress.Device.spec d' := by
      frame h10 [PciExpress.Device.spec]
    simp only [pciExpressKind, PciExpress.needsRoot, PciExpress.PciExpress.spec,
      PciExpress.DeviceType.spec, PciExpress.presentV2, pcieSize, e, hd] at ha hv hs ⊢
    rw [if_neg (show ¬ d.length < 26 by omega), if_neg (show ¬ d'.length < 26 by omega)]
    simp only [hv, if_false] at ha hs ⊢
    generalize (fld (rd16 d' 0) 4 4 : U8) = t at *
    by_cases t9 : t = 9
    · subst t9; simp [pick]
    have h18 : agree 18 d d' := ha.mono (by
      simp only [pick, t9, if_false]; (repeat' split) <;> omega)
    have hl : PciExpress.Link.spec d = PciExpress.Link.spec d' := by
      frame h18 [PciExpress.Link.spec]
    rw [hl]
    by_cases t0 : t = 0
    · subst t0; simp [pick]
    by_cases t1 : t = 1
    · subst t1; simp [pick]
    by_cases t5 : t = 5
    · subst t5; simp [pick]
    by_cases t7 : t = 7
    · subst t7; simp [pick]
    exfalso
    apply hs
    simp only [pick, t0, t1, t5, t7, t9, if_false]
    (repeat' split) <;> omega

example : agree (pcieSize ([0x01, 0x00] ++ List.replicate 16 7)) ([0x01, 0x00] ++ List.replicate 24 7)
    ([0x01, 0x00] ++ List.replicate 16 7 ++ List.replicate 9 5) := by decide +kernel

/-- C77: whatever follows an AGP structure, the registers every revision has are its own. -/
theorem agp_own (h : Header.Header) (p : U8) (d d' : Bytes) (ha : agree 10 d d') :
    ∃ v w, decodeKind h p 0x02 d = .ok (.AcceleratedGraphicsPort v) ∧
      decodeKind h p 0x02 d' = .ok (.AcceleratedGraphicsPort w) ∧
      v.identifier = w.identifier ∧ v.status = w.status ∧ v.command = w.command := by
  have h1 := ha.1
  have h2 := ha.2.1
  refine ⟨.spec d, .spec d', ?_, ?_, ?_⟩
  · rw [decodeKind_eq]
    simp only [kindSpec, pick, plainKind, BitVec.reduceEq, if_true, if_false, h1]
  · rw [decodeKind_eq]
    simp only [kindSpec, pick, plainKind, BitVec.reduceEq, if_true, if_false, h2]
  · frame ha [AcceleratedGraphicsPort.AcceleratedGraphicsPort.spec]
    trivial

example : agree 10 [0x20, 0, 1, 2, 3, 4, 5, 6, 7, 8] [0x20, 0, 1, 2, 3, 4, 5, 6, 7, 8, 9, 10] := by
  decide

end Pcics.Frame
