import Verif.Lemmas.ExtendedFrame
import Verif.Props.ExtendedCapabilities
/- An extended capability is decoded from the bytes of its own structure. -/

namespace Pcics.ExtendedCapabilities
open Spec

/-- C78: data agreeing in the bytes the structure consists of is decoded to the same kind, or fails
in the same way, whatever follows; bytes that are kept for later accesses agree as far as the data
do.  Partial: for Advanced Error Reporting and Multicast this is proved with the optional registers
counted into every structure; see `aer_takes_foreign_bytes` and `multicast_takes_foreign_bytes`. -/
theorem ecap_frame_partial (o id : U16) (n : Nat) (s s' d d' : Bytes)
    (hd : id ∉ fromStart → readSize id d ≤ n ∧ agree n d d')
    (hs : id ∈ fromStart → readSize id s ≤ n ∧ agree n s s') :
    sameKind n (decodeKind o id d s) (decodeKind o id d' s') := by
  rw [decodeKind_eq, decodeKind_eq]
  unfold kindSpec
  by_cases i : id = 0x03
  · subst i
    obtain ⟨hn, ha⟩ := hd (by decide)
    simp only [readSize, structSize, pick, BitVec.reduceEq, if_true, if_false] at hn ⊢
    refine plain_same ha (by omega) _ _ _ _ _ ?_
    refine same_of_eq ?_ rfl
    frame ha [DeviceSerialNumber.DeviceSerialNumber.spec]
  by_cases i : id = 0x04
  · subst i
    obtain ⟨hn, ha⟩ := hd (by decide)
    simp only [readSize, structSize, pick, BitVec.reduceEq, if_true, if_false] at hn ⊢
    refine plain_same ha (by omega) _ _ _ _ _ ?_
    refine same_of_eq ?_ rfl
    frame ha [PowerBudgeting.PowerBudgeting.spec]
  by_cases i : id = 0x06
  · subst i
    obtain ⟨hn, ha⟩ := hd (by decide)
    simp only [readSize, structSize, pick, BitVec.reduceEq, if_true, if_false] at hn ⊢
    refine plain_same ha (by omega) _ _ _ _ _ ?_
    refine same_of_eq ?_ rfl
    frame ha [RootComplexInternalLinkControl.RootComplexInternalLinkControl.spec]
  by_cases i : id = 0x07
  · subst i
    obtain ⟨hn, ha⟩ := hd (by decide)
    simp only [readSize, structSize, pick, BitVec.reduceEq, if_true, if_false] at hn ⊢
    refine plain_same ha (by omega) _ _ _ _ _ ?_
    refine same_of_eq ?_ rfl
    frame ha [RootComplexEventCollectorEndpointAssociation.RootComplexEventCollectorEndpointAssociation.spec]
  by_cases i : id = 0x0e
  · subst i
    obtain ⟨hn, ha⟩ := hd (by decide)
    simp only [readSize, structSize, pick, BitVec.reduceEq, if_true, if_false] at hn ⊢
    refine plain_same ha (by omega) _ _ _ _ _ ?_
    refine same_of_eq ?_ rfl
    frame ha [AlternativeRoutingIdInterpolation.AlternativeRoutingIdInterpretation.spec]
  by_cases i : id = 0x0f
  · subst i
    obtain ⟨hn, ha⟩ := hd (by decide)
    simp only [readSize, structSize, pick, BitVec.reduceEq, if_true, if_false] at hn ⊢
    refine plain_same ha (by omega) _ _ _ _ _ ?_
    refine same_of_eq ?_ rfl
    frame ha [AddressTranslationServices.AddressTranslationServices.spec]
  by_cases i : id = 0x10
  · subst i
    obtain ⟨hn, ha⟩ := hd (by decide)
    simp only [readSize, structSize, pick, BitVec.reduceEq, if_true, if_false] at hn ⊢
    refine plain_same ha (by omega) _ _ _ _ _ ?_
    refine same_of_eq ?_ rfl
    frame ha [SingleRootIoVirtualization.SingleRootIoVirtualization.spec, agree.rd32s ha]
  by_cases i : id = 0x13
  · subst i
    obtain ⟨hn, ha⟩ := hd (by decide)
    simp only [readSize, structSize, pick, BitVec.reduceEq, if_true, if_false] at hn ⊢
    refine plain_same ha (by omega) _ _ _ _ _ ?_
    refine same_of_eq ?_ rfl
    frame ha [PageRequestInterface.PageRequestInterface.spec]
  by_cases i : id = 0x18
  · subst i
    obtain ⟨hn, ha⟩ := hd (by decide)
    simp only [readSize, structSize, pick, BitVec.reduceEq, if_true, if_false] at hn ⊢
    refine plain_same ha (by omega) _ _ _ _ _ ?_
    refine same_of_eq ?_ rfl
    frame ha [LatencyToleranceReporting.LatencyToleranceReporting.spec]
  by_cases i : id = 0x1b
  · subst i
    obtain ⟨hn, ha⟩ := hd (by decide)
    simp only [readSize, structSize, pick, BitVec.reduceEq, if_true, if_false] at hn ⊢
    refine plain_same ha (by omega) _ _ _ _ _ ?_
    refine same_of_eq ?_ rfl
    frame ha [ProcessAddressSpaceId.ProcessAddressSpaceId.spec]
  by_cases i : id = 0x1e
  · subst i
    obtain ⟨hn, ha⟩ := hd (by decide)
    simp only [readSize, structSize, pick, BitVec.reduceEq, if_true, if_false] at hn ⊢
    refine plain_same ha (by omega) _ _ _ _ _ ?_
    refine same_of_eq ?_ rfl
    frame ha [L1PmSubstates.L1PmSubstates.spec]
  by_cases i : id = 0x1f
  · subst i
    obtain ⟨hn, ha⟩ := hd (by decide)
    simp only [readSize, structSize, pick, BitVec.reduceEq, if_true, if_false] at hn ⊢
    refine plain_same ha (by omega) _ _ _ _ _ ?_
    refine same_of_eq ?_ rfl
    frame ha [PrecisionTimeMeasurement.PrecisionTimeMeasurement.spec]
  by_cases i : id = 0x0a
  · subst i
    obtain ⟨hn, ha⟩ := hs (by decide)
    simp only [readSize, structSize, pick, BitVec.reduceEq, if_true, if_false] at hn ⊢
    refine plain_same ha (by omega) _ _ _ _ _ ?_
    refine same_of_eq ?_ rfl
    frame ha [RootComplexRegisterBlockHeader.RootComplexRegisterBlockHeader.spec]
  by_cases i : id = 0x0c
  · subst i
    obtain ⟨hn, ha⟩ := hs (by decide)
    simp only [readSize, structSize, pick, BitVec.reduceEq, if_true, if_false] at hn ⊢
    refine plain_same ha (by omega) _ _ _ _ _ ?_
    refine same_of_eq ?_ rfl
    frame ha [ConfigurationAccessCorrelation.ConfigurationAccessCorrelation.spec]
  by_cases i : id = 0x1c
  · subst i
    obtain ⟨hn, ha⟩ := hs (by decide)
    simp only [readSize, structSize, pick, BitVec.reduceEq, if_true, if_false] at hn ⊢
    refine plain_same ha (by omega) _ _ _ _ _ ?_
    refine same_of_eq ?_ rfl
    frame ha [LnRequester.LnRequester.spec]
  by_cases i : id = 0x20
  · subst i
    obtain ⟨hn, ha⟩ := hs (by decide)
    simp only [readSize, structSize, pick, BitVec.reduceEq, if_true, if_false] at hn ⊢
    refine plain_same ha (by omega) _ _ _ _ _ ?_
    refine same_of_eq ?_ rfl
    frame ha [PciExpressOverMphy.PciExpressOverMphy.spec]
  by_cases i : id = 0x21
  · subst i
    obtain ⟨hn, ha⟩ := hs (by decide)
    simp only [readSize, structSize, pick, BitVec.reduceEq, if_true, if_false] at hn ⊢
    refine plain_same ha (by omega) _ _ _ _ _ ?_
    refine same_of_eq ?_ rfl
    frame ha [FrsQueuing.FrsQueuing.spec]
  by_cases i : id = 0x22
  · subst i
    obtain ⟨hn, ha⟩ := hs (by decide)
    simp only [readSize, structSize, pick, BitVec.reduceEq, if_true, if_false] at hn ⊢
    refine plain_same ha (by omega) _ _ _ _ _ ?_
    refine same_of_eq ?_ rfl
    frame ha [ReadinessTimeReporting.ReadinessTimeReporting.spec]
  by_cases i : id = 0x12
  · subst i
    obtain ⟨hn, ha⟩ := hs (by decide)
    simp only [readSize, structSize, pick, BitVec.reduceEq, if_true, if_false] at hn ⊢
    refine plain_same ha (by omega) _ _ _ _ _ ?_
    refine same_of_eq ?_ rfl
    have h1 := ha.1
    have h2 := ha.2.1
    frame ha [Multicast.Multicast.spec, show 48 ≤ s.length by omega, show 48 ≤ s'.length by omega]
  by_cases i : id = 0x01
  · subst i
    obtain ⟨hn, ha⟩ := hd (by decide)
    simp only [readSize, structSize, pick, BitVec.reduceEq, if_true, if_false] at hn ⊢
    rw [aer_same (ha.mono (by omega))]
    exact sameKind_wrap _ _ _ fun _ => rfl
  by_cases i : id = 0x05
  · subst i
    obtain ⟨hn, ha⟩ := hd (by decide)
    simp only [readSize, structSize, pick, BitVec.reduceEq, if_true, if_false] at hn ⊢
    rw [rcld_same (ha.mono (by omega))]
    exact sameKind_wrap _ _ _ fun _ => rfl
  by_cases i : id = 0x15
  · subst i
    obtain ⟨hn, ha⟩ := hs (by decide)
    simp only [readSize, structSize, pick, BitVec.reduceEq, if_true, if_false] at hn ⊢
    rw [rebar_same (ha.mono (by omega))]
    exact sameKind_wrap _ _ _ fun _ => rfl
  by_cases i : id = 0x24
  · subst i
    obtain ⟨hn, ha⟩ := hs (by decide)
    simp only [readSize, structSize, pick, BitVec.reduceEq, if_true, if_false] at hn ⊢
    rw [rebar_same (ha.mono (by omega))]
    exact sameKind_wrap _ _ _ fun _ => rfl
  by_cases i : id = 0x16
  · subst i
    obtain ⟨hn, ha⟩ := hs (by decide)
    simp only [readSize, structSize, pick, BitVec.reduceEq, if_true, if_false] at hn ⊢
    rw [dpa_same (ha.mono (by omega))]
    exact sameKind_wrap _ _ _ fun _ => rfl
  by_cases i : id = 0x1a
  · subst i
    obtain ⟨hn, ha⟩ := hs (by decide)
    simp only [readSize, structSize, pick, BitVec.reduceEq, if_true, if_false] at hn ⊢
    rw [pmux_same (ha.mono (by omega))]
    exact sameKind_wrap _ _ _ fun _ => rfl
  by_cases i : id = 0x1d
  · subst i
    obtain ⟨hn, ha⟩ := hd (by decide)
    simp only [readSize, structSize, pick, BitVec.reduceEq, if_true, if_false] at hn ⊢
    rw [dpc_same (ha.mono (by omega))]
    exact sameKind_wrap _ _ _ fun _ => rfl
  by_cases i : id = 0x02
  · subst i
    obtain ⟨hn, ha⟩ := hd (by decide)
    simp only [readSize, structSize, pick, BitVec.reduceEq, if_true, if_false] at hn ⊢
    refine plain_same ha (by omega) _ _ _ _ _ (And.intro ?_ ha)
    frame ha [VirtualChannel.VirtualChannel.spec]
  by_cases i : id = 0x09
  · subst i
    obtain ⟨hn, ha⟩ := hd (by decide)
    simp only [readSize, structSize, pick, BitVec.reduceEq, if_true, if_false] at hn ⊢
    refine plain_same ha (by omega) _ _ _ _ _ (And.intro ?_ ha)
    frame ha [VirtualChannel.VirtualChannel.spec]
  by_cases i : id = 0x08
  · subst i
    obtain ⟨hn, ha⟩ := hs (by decide)
    simp only [readSize, structSize, pick, BitVec.reduceEq, if_true, if_false] at hn ⊢
    exact mfvc_same _ (by omega) ha
  by_cases i : id = 0x0b
  · subst i
    obtain ⟨hn, ha⟩ := hd (by decide)
    simp only [readSize, structSize, pick, BitVec.reduceEq, if_true, if_false] at hn ⊢
    refine plain_same ha (by omega) _ _ _ _ _ ?_
    refine same_of_eq ?_ rfl
    rw [vsec_same (ha.mono (by omega))]
    frame ha [VendorSpecificExtendedCapability.VsecHeader.spec]
  by_cases i : id = 0x0d
  · subst i
    obtain ⟨hn, ha⟩ := hd (by decide)
    simp only [readSize, structSize, pick, BitVec.reduceEq, if_true, if_false] at hn ⊢
    refine plain_same ha (by omega) _ _ _ _ _ (And.intro ?_ (ha.drop 4 (by omega)))
    frame ha [pick]
  by_cases i : id = 0x17
  · subst i
    obtain ⟨hn, ha⟩ := hd (by decide)
    simp only [readSize, structSize, pick, BitVec.reduceEq, if_true, if_false] at hn ⊢
    refine plain_same ha ?_ _ _ _ _ _ (tph_same (by omega) ha)
    simp only [tphSize] at hn
    split at hn <;> omega
  by_cases i : id = 0x19
  · subst i
    obtain ⟨hn, ha⟩ := hd (by decide)
    simp only [readSize, structSize, pick, BitVec.reduceEq, if_true, if_false] at hn ⊢
    refine plain_same ha (by omega) _ _ _ _ _ (And.intro ?_ (ha.drop 8 (by omega)))
    frame ha [SecondaryPciExpress.SecondaryPciExpress.spec]
  by_cases i : id = 0x23
  · subst i
    obtain ⟨hn, ha⟩ := hs (by decide)
    simp only [readSize, structSize, pick, BitVec.reduceEq, if_true, if_false] at hn ⊢
    exact dvsec_same _ (by omega) ha
  by_cases i : id = 0x00
  · subst i; simp only [pick, BitVec.reduceEq, if_true, if_false]; rfl
  by_cases i : id = 0x11
  · subst i; simp only [pick, BitVec.reduceEq, if_true, if_false]; rfl
  by_cases i : id = 0x14
  · subst i; simp only [pick, BitVec.reduceEq, if_true, if_false]; rfl
  by_cases i : id = 0x25
  · subst i; simp only [pick, BitVec.reduceEq, if_true, if_false]; rfl
  by_cases i : id = 0x26
  · subst i; simp only [pick, BitVec.reduceEq, if_true, if_false]; rfl
  by_cases i : id = 0x27
  · subst i; simp only [pick, BitVec.reduceEq, if_true, if_false]; rfl
  by_cases i : id = 0x28
  · subst i; simp only [pick, BitVec.reduceEq, if_true, if_false]; rfl
  by_cases i : id = 0x29
  · subst i; simp only [pick, BitVec.reduceEq, if_true, if_false]; rfl
  by_cases i : id = 0x2a
  · subst i; simp only [pick, BitVec.reduceEq, if_true, if_false]; rfl
  by_cases i : id = 0x2b
  · subst i; simp only [pick, BitVec.reduceEq, if_true, if_false]; rfl
  by_cases i : id = 0x2c
  · subst i; simp only [pick, BitVec.reduceEq, if_true, if_false]; rfl
  simp only [pick, *, if_false]
  rfl

/-- The hypotheses are met: a DPC structure of 8 register bytes followed by different bytes. -/
example : (0x1d : U16) ∉ fromStart ∧ readSize 0x1d [0x01, 0, 2, 0, 3, 0, 4, 0, 0xaa] ≤ 8 ∧
    agree 8 [0x01, 0, 2, 0, 3, 0, 4, 0, 0xaa] [0x01, 0, 2, 0, 3, 0, 4, 0, 0xbb, 0xcc] := by
  decide +kernel

/-- And a DVSEC of 12 bytes (its registers start with the header). -/
example : (0x23 : U16) ∈ fromStart ∧
    readSize 0x23 [0x23, 0, 1, 0, 0x86, 0x80, 0xc0, 0, 7, 0, 1, 2, 0xaa] ≤ 12 ∧
    agree 12 [0x23, 0, 1, 0, 0x86, 0x80, 0xc0, 0, 7, 0, 1, 2, 0xaa]
      [0x23, 0, 1, 0, 0x86, 0x80, 0xc0, 0, 7, 0, 1, 2] := by decide +kernel

/-- The data the code decodes the structure at `o` from. -/
def source (d : Bytes) (o : U16) : Bytes :=
  if capId d o ∈ fromStart then d else (structureAt d o).drop 4

/-- C78: two spaces that agree in the headers a walk of the first one visits and in the registers
read for each of them are walked alike: same offsets, versions, kinds or failures.  Other bytes do
not matter.  Partial as `ecap_frame_partial`, and the registers of the ids of `fromStart` are those at
the start of the space (C27). -/
theorem ecap_walk_frame_partial (d d' : Bytes) (os : List U16) (q : U16)
    (hc : Chain d 0x100 os q)
    (hh : ∀ o ∈ os, agree 4 (structureAt d o) (structureAt d' o))
    (hs : ∀ o ∈ os, agree (readSize (capId d o) (source d o)) (source d o) (source d' o)) :
    Chain d' 0x100 os q ∧
    ∀ k o, os[k]? = some o → ∃ a b, (ExtendedCapabilities.new d).item k = some a ∧
      (ExtendedCapabilities.new d').item k = some b ∧
      sameItem (readSize (capId d o) (source d o)) a b := by
  have key : ∀ o ∈ os, live d o → header d o = header d' o ∧ live d' o := by
    intro o ho hl
    have ha := hh o ho
    have e : header d o = header d' o := by
      have := ha.rd32 0 (by omega)
      unfold structureAt at this
      rwa [rd32_drop, rd32_drop, Nat.add_zero] at this
    refine ⟨e, ⟨hl.1.1, ?_⟩, e ▸ hl.2⟩
    have h2 := ha.2.1
    have := hl.1.1
    unfold structureAt at h2
    rw [List.length_drop] at h2
    omega
  have chain : ∀ {o : U16} {os : List U16} {q : U16}, Chain d o os q →
      (∀ o ∈ os, live d o → header d o = header d' o ∧ live d' o) → Chain d' o os q := by
    intro o os q hc
    induction hc with
    | stop o => intro _; exact .stop o
    | step here rest ih =>
      intro hk
      have := hk _ (List.mem_cons_self ..) here
      refine .step this.2 ?_
      have e := ih fun o ho => hk o (List.mem_cons_of_mem _ ho)
      unfold capNext at e ⊢
      rwa [this.1] at e
  have hc' := chain hc key
  refine ⟨hc', fun k o hk => ?_⟩
  refine ⟨_, _, ecap_walk d os q hc k o hk, ecap_walk d' os q hc' k o hk, ?_⟩
  have hm : o ∈ os := List.mem_of_getElem? hk
  obtain ⟨_, hl, _⟩ := chain_take hc k o hk
  obtain ⟨he, _⟩ := key o hm hl
  have hid : capId d o = capId d' o := by unfold capId; rw [he]
  have hv : capVersion d o = capVersion d' o := by unfold capVersion; rw [he]
  have ha := hs o hm
  have hfr := ecap_frame_partial o (capId d o) (readSize (capId d o) (source d o)) d d'
    ((structureAt d o).drop 4) ((structureAt d' o).drop 4)
    (fun h => by
      have h' := hid ▸ h
      simp only [source, h, h', if_false] at ha ⊢
      exact ⟨Nat.le_refl _, ha⟩)
    (fun h => by
      have h' := hid ▸ h
      simp only [source, h, h', if_true] at ha ⊢
      exact ⟨Nat.le_refl _, ha⟩)
  rw [decodeKind_eq, decodeKind_eq] at hfr
  unfold itemAt report
  rw [← hid, ← hv]
  generalize kindSpec o (capId d o) d ((structureAt d o).drop 4) = x at *
  generalize kindSpec o (capId d o) d' ((structureAt d' o).drop 4) = y at *
  cases x <;> cases y <;> simp only [sameKind, reduceCtorEq] at hfr
  · exact And.intro rfl (And.intro rfl hfr)
  · exact hfr
  · rfl

/-- A device serial number at 0x100, 4 bytes `x`, an ARI capability at 0x110. -/
def frameRegion (x : U8) : Bytes :=
  [0x03, 0x00, 0x01, 0x11, 1, 2, 3, 4, 5, 6, 7, 8, x, x, x, x, 0x0e, 0x00, 0x01, 0x00, 1, 2, 3, 4]

theorem frameRegion_at (x : U8) (e : Bytes) :
    structureAt (frameRegion x ++ e) 0x100 = frameRegion x ++ e ∧
    structureAt (frameRegion x ++ e) 0x110 = [0x0e, 0x00, 0x01, 0x00, 1, 2, 3, 4] ++ e := by
  simp [structureAt, frameRegion]

/-- The hypotheses are met by two spaces that differ between the structures and in length. -/
example (x : U8) (e : Bytes) : Chain (frameRegion 0 ++ []) 0x100 [0x100, 0x110] 0 ∧
    (∀ o ∈ ([0x100, 0x110] : List U16),
      agree 4 (structureAt (frameRegion 0 ++ []) o) (structureAt (frameRegion x ++ e) o)) ∧
    (∀ o ∈ ([0x100, 0x110] : List U16),
      agree (readSize (capId (frameRegion 0 ++ []) o) (source (frameRegion 0 ++ []) o))
        (source (frameRegion 0 ++ []) o) (source (frameRegion x ++ e) o)) := by
  have n1 : capNext (frameRegion 0 ++ []) 0x100 = 0x110 := by decide +kernel
  have n2 : capNext (frameRegion 0 ++ []) 0x110 = 0 := by decide +kernel
  have i1 : ∀ (x : U8) (e : Bytes), capId (frameRegion x ++ e) 0x100 = 0x03 := by
    intro x e
    simp [capId, header, frameRegion, rd32, byteAt]
    decide +kernel
  have i2 : ∀ (x : U8) (e : Bytes), capId (frameRegion x ++ e) 0x110 = 0x0e := by
    intro x e
    simp [capId, header, frameRegion, rd32, byteAt]
    decide +kernel
  have c2 : Chain (frameRegion 0 ++ []) (capNext (frameRegion 0 ++ []) 0x110) [] 0 := by
    rw [n2]; exact .stop _
  have c1 : Chain (frameRegion 0 ++ []) (capNext (frameRegion 0 ++ []) 0x100) [0x110] 0 := by
    rw [n1]; exact .step (by decide +kernel) c2
  refine And.intro (.step (by decide +kernel) c1) (And.intro (fun o ho => ?_) fun o ho => ?_)
  · simp only [List.mem_cons, List.not_mem_nil, or_false] at ho
    rcases ho with rfl | rfl <;>
      simp only [(frameRegion_at _ _).1, (frameRegion_at _ _).2] <;>
      try unfold frameRegion
    all_goals
      refine And.intro (by simp) (And.intro (by simp) fun i hi => ?_)
      have : i = 0 ∨ i = 1 ∨ i = 2 ∨ i = 3 := by omega
      rcases this with rfl | rfl | rfl | rfl <;> rfl
  · simp only [List.mem_cons, List.not_mem_nil, or_false] at ho
    have f3 : (0x03 : U16) ∉ fromStart := by decide
    have fe : (0x0e : U16) ∉ fromStart := by decide
    rcases ho with rfl | rfl
    · simp only [source, i1, f3, if_false, readSize, structSize, pick, BitVec.reduceEq, if_true,
        (frameRegion_at _ _).1]
      refine And.intro (by simp [frameRegion]) (And.intro (by simp [frameRegion]) fun i hi => ?_)
      have : i = 0 ∨ i = 1 ∨ i = 2 ∨ i = 3 ∨ i = 4 ∨ i = 5 ∨ i = 6 ∨ i = 7 := by omega
      rcases this with rfl | rfl | rfl | rfl | rfl | rfl | rfl | rfl <;> rfl
    · simp only [source, i2, fe, if_false, readSize, structSize, pick, BitVec.reduceEq, if_true,
        (frameRegion_at _ _).2]
      refine And.intro (by simp) (And.intro (by simp) fun i hi => ?_)
      have : i = 0 ∨ i = 1 ∨ i = 2 ∨ i = 3 := by omega
      rcases this with rfl | rfl | rfl | rfl <;> rfl

/-- C78 (the code violates it): the bytes following an Advanced Error Reporting structure without
root port registers are taken for these registers. -/
theorem aer_takes_foreign_bytes (o : U16) (s d e : Bytes) (hd : d.length = 40) (he : 12 ≤ e.length)
    (hf : flag (rd32 d 20) 11 = false) :
    ∃ v w, decodeKind o 0x01 d s = .ok (.AdvancedErrorReporting v) ∧
      decodeKind o 0x01 (d ++ e) s = .ok (.AdvancedErrorReporting w) ∧
      v.root_error_command = none ∧ w.root_error_command = some (.spec (rd32 e 0)) ∧
      v.root_error_status = none ∧ w.root_error_status = some (.spec (rd32 e 4)) := by
  have hb : ∀ i, byteAt (d ++ e) (40 + i) = byteAt e i := by
    intro i
    rw [← byteAt_drop, List.drop_left' hd]
  have h0 : rd32 (d ++ e) 40 = rd32 e 0 := by
    simp only [rd32, Nat.zero_add]
    rw [show byteAt (d ++ e) 40 = byteAt e 0 from hb 0, show byteAt (d ++ e) (40 + 1) = _ from hb 1,
      show byteAt (d ++ e) (40 + 2) = _ from hb 2, show byteAt (d ++ e) (40 + 3) = _ from hb 3]
  have h4 : rd32 (d ++ e) 44 = rd32 e 4 := by
    simp only [rd32]
    rw [show byteAt (d ++ e) 44 = byteAt e 4 from hb 4, show byteAt (d ++ e) (44 + 1) = _ from hb 5,
      show byteAt (d ++ e) (44 + 2) = _ from hb 6, show byteAt (d ++ e) (44 + 3) = _ from hb 7]
  have h20 : rd32 (d ++ e) 20 = rd32 d 20 := by
    have ha : agree 40 (d ++ e) d := ⟨by simp [hd], by omega, fun i hi => by
      simp only [byteAt, List.getD_eq_getElem?_getD]
      rw [List.getElem?_append_left (by omega)]⟩
    exact ha.rd32 20 (by omega)
  refine ⟨.spec d none, .spec (d ++ e) none, ?_, ?_, ?_, ?_, ?_, ?_⟩
  · rw [decodeKind_eq]
    simp only [kindSpec, pick, BitVec.reduceEq, if_true, if_false, decodedAdvancedErrorReporting, hd, hf,
      wrap, Nat.lt_irrefl, Bool.false_eq_true]
  · rw [decodeKind_eq]
    simp only [kindSpec, pick, BitVec.reduceEq, if_true, if_false, decodedAdvancedErrorReporting, h20,
      hf, wrap, List.length_append, hd, show ¬ 40 + e.length < 40 by omega, Bool.false_eq_true]
  · simp [AdvancedErrorReporting.AdvancedErrorReporting.spec, hd]
  · simp [AdvancedErrorReporting.AdvancedErrorReporting.spec, hd, h0]; omega
  · simp [AdvancedErrorReporting.AdvancedErrorReporting.spec, hd]
  · simp [AdvancedErrorReporting.AdvancedErrorReporting.spec, hd, h4]; omega

example : flag (rd32 (List.replicate 40 0) 20) 11 = false := by decide

/-- C78 (the code violates it): the bytes following a Multicast structure of an endpoint (40 bytes)
are taken for an overlay BAR. -/
theorem multicast_takes_foreign_bytes (o : U16) (d s e : Bytes) (hd : s.length = 40)
    (he : 8 ≤ e.length) :
    ∃ v w, decodeKind o 0x12 d s = .ok (.Multicast v) ∧
      decodeKind o 0x12 d (s ++ e) = .ok (.Multicast w) ∧
      v.mc_overlay_bar = none ∧ w.mc_overlay_bar = some (.spec (rd64 e 0)) := by
  have hb : ∀ i, byteAt (s ++ e) (40 + i) = byteAt e i := by
    intro i
    rw [← byteAt_drop, List.drop_left' hd]
  have h0 : rd64 (s ++ e) 40 = rd64 e 0 := by
    simp only [rd64, Nat.zero_add]
    rw [show byteAt (s ++ e) 40 = byteAt e 0 from hb 0]
    simp only [hb]
  refine ⟨.spec s, .spec (s ++ e), ?_, ?_, ?_, ?_⟩
  · rw [decodeKind_eq]
    simp only [kindSpec, pick, BitVec.reduceEq, if_true, if_false, plain, hd, Nat.le_refl]
  · rw [decodeKind_eq]
    simp only [kindSpec, pick, BitVec.reduceEq, if_true, if_false, plain, List.length_append, hd,
      Nat.le_add_right]
  · simp [Multicast.Multicast.spec, hd]
  · simp [Multicast.Multicast.spec, hd, h0]; omega

/-- C78: that is all that is taken from behind an Advanced Error Reporting structure: whatever follows,
the registers every structure has are its own. -/
theorem aer_own (o : U16) (s s' d d' : Bytes) (ha : agree 40 d d')
    (v w : AdvancedErrorReporting.AdvancedErrorReporting)
    (hv : decodeKind o 0x01 d s = .ok (.AdvancedErrorReporting v))
    (hw : decodeKind o 0x01 d' s' = .ok (.AdvancedErrorReporting w)) :
    { v with root_error_command := none, root_error_status := none,
             error_source_identification := none, tlp_prefix_log := none } =
    { w with root_error_command := none, root_error_status := none,
             error_source_identification := none, tlp_prefix_log := none } := by
  have key : ∀ (x y : Bytes) (u : AdvancedErrorReporting.AdvancedErrorReporting),
      decodeKind o 0x01 x y = .ok (.AdvancedErrorReporting u) → ∃ l, u = .spec x l := by
    intro x y u hu
    rw [decodeKind_eq] at hu
    simp only [kindSpec, pick, BitVec.reduceEq, if_true, if_false, decodedAdvancedErrorReporting] at hu
    by_cases h40 : x.length < 40
    · simp only [h40, if_true, wrap, reduceCtorEq] at hu
    by_cases hf : flag (rd32 x 20) 11
    · by_cases h108 : x.length < 108
      · simp only [h40, hf, h108, if_true, if_false, wrap, reduceCtorEq] at hu
      · simp only [h40, hf, h108, if_true, if_false, wrap, Res.ok.injEq,
          ExtendedCapabilityKind.AdvancedErrorReporting.injEq] at hu
        exact ⟨_, hu.symm⟩
    · simp only [h40, hf, if_false, wrap, Res.ok.injEq,
        ExtendedCapabilityKind.AdvancedErrorReporting.injEq, Bool.false_eq_true] at hu
      exact ⟨_, hu.symm⟩
  obtain ⟨l, rfl⟩ := key d s v hv
  obtain ⟨l', rfl⟩ := key d' s' w hw
  simp (disch := omega) only [AdvancedErrorReporting.AdvancedErrorReporting.spec, ha.rd32, ha.rd32s]

example : agree 40 (List.replicate 40 3) (List.replicate 40 3 ++ List.replicate 60 1) ∧
    ∃ v w, decodeKind 0x100 0x01 (List.replicate 40 3) [] = .ok (.AdvancedErrorReporting v) ∧
      decodeKind 0x100 0x01 (List.replicate 40 3 ++ List.replicate 60 1) [] =
        .ok (.AdvancedErrorReporting w) :=
  ⟨by decide +kernel, _, _, rfl, rfl⟩

/-- C78: and from behind a Multicast structure nothing but the overlay BAR is taken. -/
theorem multicast_own (o : U16) (d d' s s' : Bytes) (ha : agree 40 s s') :
    ∃ v w, decodeKind o 0x12 d s = .ok (.Multicast v) ∧
      decodeKind o 0x12 d' s' = .ok (.Multicast w) ∧
      { v with mc_overlay_bar := none } = { w with mc_overlay_bar := none } := by
  have h1 := ha.1
  have h2 := ha.2.1
  refine ⟨.spec s, .spec s', ?_, ?_, ?_⟩
  · rw [decodeKind_eq]
    simp only [kindSpec, pick, BitVec.reduceEq, if_true, if_false, plain, h1]
  · rw [decodeKind_eq]
    simp only [kindSpec, pick, BitVec.reduceEq, if_true, if_false, plain, h2]
  · frame ha [Multicast.Multicast.spec]

example : agree 40 (List.replicate 40 3) (List.replicate 40 3 ++ List.replicate 60 1) := by
  decide +kernel

end Pcics.ExtendedCapabilities
