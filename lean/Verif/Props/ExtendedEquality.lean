import Verif.Props.Equality
import Verif.Props.ExtendedFrame
import Verif.Lemmas.Reads
/- Theorems about comparing extended capabilities (C96) -/

namespace Pcics.ExtendedCapabilities
open Spec
open RootComplexLinkDeclaration (linkCount)

theorem optionEq_iff {α : Type} (eq : α → α → Bool) (h : ∀ a b, eq a b = true ↔ a = b)
    (a b : Option α) : optionEq eq a b = true ↔ a = b := by
  cases a <;> cases b <;> simp [optionEq, h]

theorem mfvc_eq_iff (a b : MultifunctionVirtualChannel.MultifunctionVirtualChannel) :
    a.eq b = true ↔ a = b := by
  obtain ⟨a1, a2, a3, a4, a5, a6⟩ := a
  obtain ⟨b1, b2, b3, b4, b5, b6⟩ := b
  simp [MultifunctionVirtualChannel.MultifunctionVirtualChannel.eq,
    optionEq_iff _ VcArbitrationTable_eq_iff, and_assoc]

theorem pmux_eq_iff (a b : ProtocolMultiplexing.ProtocolMultiplexing) : a.eq b = true ↔ a = b := by
  obtain ⟨a1, a2, a3, a4⟩ := a
  obtain ⟨b1, b2, b3, b4⟩ := b
  simp [ProtocolMultiplexing.ProtocolMultiplexing.eq, PmuxProtocolArray_eq_iff, and_assoc]

/-- C96: extended capabilities, Root Complex Link Declarations aside, compare equal exactly when
nothing distinguishes them. -/
theorem ecap_eq_iff (a b : ExtendedCapability)
    (h : ∀ r, a.kind ≠ .RootComplexLinkDeclaration r) : a.eq b = true ↔ a = b := by
  obtain ⟨k, v, o⟩ := a
  obtain ⟨k', v', o'⟩ := b
  have hk : k.eq k' = true ↔ k = k' := by
    simp only at h
    unfold ExtendedCapabilityKind.eq
    split
    · exact absurd rfl (h _)
    · rw [mfvc_eq_iff, ExtendedCapabilityKind.MultifunctionVirtualChannel.injEq]
    · rw [ResizableBar_eq_iff, ExtendedCapabilityKind.ResizableBar.injEq]
    · rw [pmux_eq_iff, ExtendedCapabilityKind.ProtocolMultiplexing.injEq]
    · rw [ResizableBar_eq_iff, ExtendedCapabilityKind.VfResizableBar.injEq]
    · exact beq_iff_eq
  simp only [ExtendedCapability.eq, Bool.and_eq_true, beq_iff_eq, hk, ExtendedCapability.mk.injEq,
    and_assoc]

theorem LinkEntry_spec_eq_iff (d d' : Bytes) (i : Nat) :
    RootComplexLinkDeclaration.LinkEntry.spec d i = .spec d' i ↔
      rd32 d i &&& 0xffff0007#32 = rd32 d' i &&& 0xffff0007#32 ∧
        rd32 d (i + 8) = rd32 d' (i + 8) ∧ rd32 d (i + 12) = rd32 d' (i + 12) := by
  rw [← RootComplexLinkDeclaration.LinkDescription_reads]
  simp only [RootComplexLinkDeclaration.LinkEntry.spec, RootComplexLinkDeclaration.LinkEntry.mk.injEq,
    RootComplexLinkDeclaration.LinkDescription_layout]
  refine and_congr_right fun h => ?_
  have ht : (fld (rd32 d i) 1 1 : U8) = fld (rd32 d' i) 1 1 :=
    congrArg RootComplexLinkDeclaration.LinkDescription.link_type h
  rw [ht]
  refine ⟨fun he => ?_, fun he => by rw [he.1, he.2]⟩
  rw [← RootComplexLinkDeclaration.LinkAddress_layout,
    ← RootComplexLinkDeclaration.LinkAddress_layout] at he
  have := congrArg RootComplexLinkDeclaration.LinkAddress.toDwords he
  rw [RootComplexLinkDeclaration.LinkAddress_roundtrip,
    RootComplexLinkDeclaration.LinkAddress_roundtrip, Prod.mk.injEq] at this
  exact this

/-- C96: Root Complex Link Declarations compare equal exactly when their element self descriptions
are the same, as many link entries are complete, and these are the same apart from reserved bits. -/
theorem links_eq_iff (d d' : Bytes)
    (r r' : RootComplexLinkDeclaration.RootComplexLinkDeclaration)
    (hr : RootComplexLinkDeclaration.RootComplexLinkDeclaration.ofBytes d = .ok r)
    (hr' : RootComplexLinkDeclaration.RootComplexLinkDeclaration.ofBytes d' = .ok r') :
    r.eq r' = true ↔ rd32 d 0 = rd32 d' 0 ∧ linkCount d = linkCount d' ∧
      ∀ i, i < linkCount d →
        rd32 d (12 + 16 * i) &&& 0xffff0007#32 = rd32 d' (12 + 16 * i) &&& 0xffff0007#32 ∧
        rd32 d (20 + 16 * i) = rd32 d' (20 + 16 * i) ∧
        rd32 d (24 + 16 * i) = rd32 d' (24 + 16 * i) := by
  have key : ∀ (x : Bytes) (q : RootComplexLinkDeclaration.RootComplexLinkDeclaration),
      RootComplexLinkDeclaration.RootComplexLinkDeclaration.ofBytes x = .ok q →
      q.element_self_description = .spec (rd32 x 0) := by
    intro x q hq
    rw [RootComplexLinkDeclaration.RootComplexLinkDeclaration_bytes] at hq
    split at hq
    · cases hq
    split at hq
    · cases hq
    split at hq
    · cases hq
    split at hq
    · cases hq
    cases hq; rfl
  have hesd : r.element_self_description = r'.element_self_description ↔ rd32 d 0 = rd32 d' 0 := by
    rw [key d r hr, key d' r' hr', ← RootComplexLinkDeclaration.ElementSelfDescription_layout,
      ← RootComplexLinkDeclaration.ElementSelfDescription_layout,
      RootComplexLinkDeclaration.ElementSelfDescription_reads]
  rw [RootComplexLinkDeclaration.RootComplexLinkDeclaration.eq, Bool.and_eq_true, beq_iff_eq, hesd,
    LinkEntries_eq_iff]
  refine and_congr_right fun _ => ?_
  simp only [RootComplexLinkDeclaration.LinkEntries_items d r hr,
    RootComplexLinkDeclaration.LinkEntries_items d' r' hr']
  have e : ∀ i, (rd32 d (12 + 16 * i) &&& 0xffff0007#32 = rd32 d' (12 + 16 * i) &&& 0xffff0007#32 ∧
        rd32 d (20 + 16 * i) = rd32 d' (20 + 16 * i) ∧
        rd32 d (24 + 16 * i) = rd32 d' (24 + 16 * i)) ↔
      RootComplexLinkDeclaration.LinkEntry.spec d (12 + 16 * i) = .spec d' (12 + 16 * i) := by
    intro i
    rw [LinkEntry_spec_eq_iff, show 12 + 16 * i + 8 = 20 + 16 * i by omega,
      show 12 + 16 * i + 12 = 24 + 16 * i by omega]
  simp only [e]
  rw [show min (RootComplexLinkDeclaration.announced d) ((d.length - 12) / 16) = linkCount d from rfl,
    show min (RootComplexLinkDeclaration.announced d') ((d'.length - 12) / 16) = linkCount d' from rfl]
  constructor
  · intro h
    have h1 := h (linkCount d + linkCount d')
    rw [List.take_of_length_le (by simp), List.take_of_length_le (by simp)] at h1
    have hl : linkCount d = linkCount d' := by simpa using congrArg List.length h1
    refine ⟨hl, fun i hi => ?_⟩
    have := congrArg (·[i]?) h1
    simpa [hi, hl ▸ hi] using this
  · rintro ⟨hl, hi⟩ k
    rw [← hl]
    congr 1
    apply List.map_congr_left
    intro i hm
    exact hi i (List.mem_range.1 hm)

/-- The reserved bytes of a link entry make no difference, nor do bytes after the last entry
announced. -/
example :
    let d : Bytes := [2, 1, 3, 4, 0, 0, 0, 0, 0, 0, 0, 0] ++
      [1, 0, 2, 3, 0, 0, 0, 0, 0, 0, 0, 0xfe, 0, 0, 0, 0]
    let d' : Bytes := [2, 1, 3, 4, 0, 0, 0, 0, 0, 0, 0, 0] ++
      [1, 9, 2, 3, 7, 7, 7, 7, 0, 0, 0, 0xfe, 0, 0, 0, 0, 1, 2, 3]
    ∃ r r', RootComplexLinkDeclaration.RootComplexLinkDeclaration.ofBytes d = .ok r ∧
      RootComplexLinkDeclaration.RootComplexLinkDeclaration.ofBytes d' = .ok r' ∧
      r.eq r' = true ∧ r ≠ r' :=
  ⟨_, _, rfl, rfl, by decide +kernel, by decide +kernel⟩

/-- C96: of two Root Complex Link Declarations as extended capabilities the version and offset are
compared in addition; a Root Complex Link Declaration equals no other kind. -/
theorem ecap_links_eq_iff (a b : ExtendedCapability)
    (r : RootComplexLinkDeclaration.RootComplexLinkDeclaration)
    (h : a.kind = .RootComplexLinkDeclaration r) :
    a.eq b = true ↔ ∃ r', b.kind = .RootComplexLinkDeclaration r' ∧ r.eq r' = true ∧
      a.version = b.version ∧ a.offset = b.offset := by
  obtain ⟨k, v, o⟩ := a
  obtain ⟨k', v', o'⟩ := b
  simp only at h
  subst h
  cases k' with
  | RootComplexLinkDeclaration r' =>
    simp [ExtendedCapability.eq, ExtendedCapabilityKind.eq, and_assoc]
  | _ => simp [ExtendedCapability.eq, ExtendedCapabilityKind.eq]

/-- C96: what is decoded from data agreeing in the bytes of the structure compares equal, whatever
follows.  Partial: not so for the ids whose values keep what follows, see `acs_eq_foreign_bytes`; and
the structures of Advanced Error Reporting and Multicast are counted as in `ecap_frame_partial`. -/
theorem ecap_eq_own_partial (o id : U16) (n : Nat) (s s' d d' : Bytes) (hid : id ∉ keeping)
    (hd : id ∉ fromStart → readSize id d ≤ n ∧ agree n d d')
    (hs : id ∈ fromStart → readSize id s ≤ n ∧ agree n s s') (k : ExtendedCapabilityKind)
    (hk : decodeKind o id d s = .ok k) :
    ∃ k', decodeKind o id d' s' = .ok k' ∧ k.eq k' = true := by
  have hf := ecap_frame_partial o id n s s' d d' hd hs
  have hi := (ecap_kind_of_id o id d s k 0 hk).1
  rw [hk] at hf
  cases hk' : decodeKind o id d' s' with
  | err e => rw [hk'] at hf; simp [sameKind] at hf
  | panic => rw [hk'] at hf; simp [sameKind] at hf
  | ok k' =>
    rw [hk'] at hf
    refine ⟨k', rfl, ?_⟩
    have e : k = k' := by
      simp only [sameKind] at hf
      unfold ExtendedCapabilityKind.same at hf
      split at hf
      all_goals first
        | exact hf
        | (refine absurd ?_ hid; rw [← hi]; simp only [ExtendedCapability.id]; decide)
    subst e
    by_cases hr : ∃ r, k = .RootComplexLinkDeclaration r
    · obtain ⟨r, rfl⟩ := hr
      simp [ExtendedCapabilityKind.eq, RootComplexLinkDeclaration.RootComplexLinkDeclaration.eq,
        LinkEntries_eq_iff]
    · have := (ecap_eq_iff ⟨k, 0, 0⟩ ⟨k, 0, 0⟩ (fun r h => hr ⟨r, h⟩)).2 rfl
      simpa [ExtendedCapability.eq] using this

example : (0x03 : U16) ∉ keeping ∧ (0x03 : U16) ∉ fromStart ∧
    readSize 0x03 [1, 2, 3, 4, 5, 6, 7, 8, 9] ≤ 8 ∧
    agree 8 [1, 2, 3, 4, 5, 6, 7, 8, 9] [1, 2, 3, 4, 5, 6, 7, 8] := by
  refine ⟨by decide, by decide, by decide, ?_⟩
  unfold agree
  decide

/-- C96 (the code violates it): Access Control Services without an egress control vector compare
unequal when any byte after the structure differs, as all of what follows is kept in `data`; no
public field or method shows a difference. -/
theorem acs_eq_foreign_bytes (o : U16) (s d e e' : Bytes) (hd : d.length = 4)
    (hf : flag (rd16 d 0) 5 = false) (hz : (fld (rd16 d 0) 8 8 : U8) = 0) (he : e ≠ e') :
    ∃ v w, decodeKind o 0x0d (d ++ e) s = .ok (.AccessControlServices v) ∧
      decodeKind o 0x0d (d ++ e') s = .ok (.AccessControlServices w) ∧
      ExtendedCapabilityKind.eq (.AccessControlServices v) (.AccessControlServices w) = false ∧
      v.acs_capability = w.acs_capability ∧ v.acs_control = w.acs_control ∧
      v.acs_capability.acs_p2p_egress_control = false ∧
      v.egress_control_vectors = w.egress_control_vectors := by
  have hb : ∀ (x : Bytes) i, i + 1 < 4 → rd16 (d ++ x) i = rd16 d i := by
    intro x i hi
    simp only [rd16, byteAt, List.getD_eq_getElem?_getD]
    rw [List.getElem?_append_left (by omega), List.getElem?_append_left (by omega)]
  have hk : ∀ x : Bytes, decodeKind o 0x0d (d ++ x) s = .ok (.AccessControlServices {
      data := x, acs_capability := .read (rd16 d 0), acs_control := .spec (rd16 d 2) }) := by
    intro x
    rw [decodeKind_eq]
    simp only [kindSpec, pick, BitVec.reduceEq, if_true, if_false, plain, List.length_append, hd,
      Nat.le_add_right, hb x 0 (by omega), hb x 2 (by omega), List.drop_left' hd]
  have h7 : (fld (rd16 d 0) 8 7 : U8) = 0 := by
    have : (fld (rd16 d 0) 8 7 : U8) = (fld (rd16 d 0) 8 8 : U8) &&& 0x7f#8 := by bv_bits []
    rw [this, hz]; rfl
  refine ⟨_, _, hk e, hk e', ?_, rfl, rfl, hf, ?_⟩
  · simp [ExtendedCapabilityKind.eq, he]
  · simp [AccessControlServices.AccessControlServices.egress_control_vectors,
      AccessControlServices.AcsCapability.read, h7, getTo]

example : flag (rd16 [0x1f, 0, 0, 0] 0) 5 = false ∧ (fld (rd16 [0x1f, 0, 0, 0] 0) 8 8 : U8) = 0 := by
  decide

/-- C96 (the code violates it): Virtual Channels (both ids) compare equal exactly when all bytes from
the structure to the end of the space are the same, reserved ones included. -/
theorem vc_eq_all_bytes (o : U16) (s s' d d' : Bytes) (k k' : ExtendedCapabilityKind) (id : U16)
    (hid : id = 0x02 ∨ id = 0x09) (hk : decodeKind o id d s = .ok k)
    (hk' : decodeKind o id d' s' = .ok k') : k.eq k' = true ↔ d = d' := by
  rw [decodeKind_eq] at hk hk'
  rcases hid with rfl | rfl <;>
    simp only [kindSpec, pick, BitVec.reduceEq, if_true, if_false, plain] at hk hk' <;>
    (split at hk
     · split at hk'
       · cases hk; cases hk'
         simp only [ExtendedCapabilityKind.eq, beq_iff_eq, ExtendedCapabilityKind.VirtualChannel.injEq,
           ExtendedCapabilityKind.VirtualChannelMfvcPresent.injEq]
         exact ⟨congrArg VirtualChannel.VirtualChannel.data, fun h => by rw [h]⟩
       · cases hk'
     · cases hk)

example : (∃ k, decodeKind 0x100 0x02 (List.replicate 12 0) [] = .ok k) ∧
    ∃ k, decodeKind 0x100 0x02 (List.replicate 13 0) [] = .ok k := ⟨⟨_, rfl⟩, _, rfl⟩

/-- C96 (the code violates it): Secondary PCI Express capabilities compare equal exactly when the link
control and lane error registers are the same and all bytes after these, to the end of the space. -/
theorem secondary_eq_all_bytes (o : U16) (s s' d d' : Bytes) (k k' : ExtendedCapabilityKind)
    (hk : decodeKind o 0x19 d s = .ok k) (hk' : decodeKind o 0x19 d' s' = .ok k') :
    k.eq k' = true ↔ rd32 d 0 &&& 0xfe03#32 = rd32 d' 0 &&& 0xfe03#32 ∧ rd32 d 4 = rd32 d' 4 ∧
      d.drop 8 = d'.drop 8 := by
  rw [decodeKind_eq] at hk hk'
  simp only [kindSpec, pick, BitVec.reduceEq, if_true, if_false, plain] at hk hk'
  split at hk
  · split at hk'
    · cases hk; cases hk'
      simp only [ExtendedCapabilityKind.eq, beq_iff_eq,
        ExtendedCapabilityKind.SecondaryPciExpress.injEq,
        SecondaryPciExpress.SecondaryPciExpress.spec,
        SecondaryPciExpress.SecondaryPciExpress.mk.injEq, SecondaryPciExpress.LaneErrorStatus.mk.injEq,
        ← SecondaryPciExpress.LinkControl3_layout, SecondaryPciExpress.LinkControl3_reads]
      tauto
    · cases hk'
  · cases hk

example : (∃ k, decodeKind 0x100 0x19 (List.replicate 8 0) [] = .ok k) ∧
    ∃ k, decodeKind 0x100 0x19 (List.replicate 9 0) [] = .ok k := ⟨⟨_, rfl⟩, _, rfl⟩

theorem AcsCapability_read_iff (a b : U16) :
    AccessControlServices.AcsCapability.read a = AccessControlServices.AcsCapability.read b ↔
      a &&& 0x7f7f#16 = b &&& 0x7f7f#16 := by
  reads [AccessControlServices.AcsCapability.read, AccessControlServices.AcsCapability.spec,
    AccessControlServices.AcsCapability.mk.injEq]

/-- C96 (the code violates it): Access Control Services compare equal exactly when the bits read of
the two registers are the same (the top bit of the vector size is not read, C47) and all bytes after
these, to the end of the space. -/
theorem acs_eq_all_bytes (o : U16) (s s' d d' : Bytes) (k k' : ExtendedCapabilityKind)
    (hk : decodeKind o 0x0d d s = .ok k) (hk' : decodeKind o 0x0d d' s' = .ok k') :
    k.eq k' = true ↔ rd16 d 0 &&& 0x7f7f#16 = rd16 d' 0 &&& 0x7f7f#16 ∧
      rd16 d 2 &&& 0x7f#16 = rd16 d' 2 &&& 0x7f#16 ∧ d.drop 4 = d'.drop 4 := by
  rw [decodeKind_eq] at hk hk'
  simp only [kindSpec, pick, BitVec.reduceEq, if_true, if_false, plain] at hk hk'
  split at hk
  · split at hk'
    · cases hk; cases hk'
      simp only [ExtendedCapabilityKind.eq, beq_iff_eq,
        ExtendedCapabilityKind.AccessControlServices.injEq,
        AccessControlServices.AccessControlServices.mk.injEq, AcsCapability_read_iff,
        ← AccessControlServices.AcsControl_layout, AccessControlServices.AcsControl_reads]
      tauto
    · cases hk'
  · cases hk

example : (∃ k, decodeKind 0x100 0x0d [0x7f, 8, 0, 0, 0, 0, 0, 0] [] = .ok k) ∧
    ∃ k, decodeKind 0x100 0x0d [0x7f, 0x88, 0, 0xff, 0, 0, 0, 0] [] = .ok k := ⟨⟨_, rfl⟩, _, rfl⟩

/-- C96 (the code violates it): TPH Requester capabilities with the same registers, which announce
an ST table of more than 64 entries in the structure, compare equal exactly when all bytes after the
registers are the same, to the end of the space. -/
theorem tph_eq_all_bytes (o : U16) (s s' d d' : Bytes) (k k' : ExtendedCapabilityKind)
    (hk : decodeKind o 0x17 d s = .ok k) (hk' : decodeKind o 0x17 d' s' = .ok k')
    (h0 : rd32 d 0 = rd32 d' 0) (h4 : rd32 d 4 = rd32 d' 4)
    (hl : (fld (rd32 d 0) 9 2 : U8) = 1) (hs : 64 ≤ (fld (rd32 d 0) 16 11 : U16).toNat) :
    k.eq k' = true ↔ d.drop 8 = d'.drop 8 := by
  rw [decodeKind_eq] at hk hk'
  simp only [kindSpec, pick, BitVec.reduceEq, if_true, if_false, plain] at hk hk'
  split at hk
  · split at hk'
    · cases hk; cases hk'
      have hn : ¬ (fld (rd32 d' 0) 16 11 : U16).toNat + 1 ≤ 64 := by rw [← h0]; omega
      rw [h0] at hl
      simp only [ExtendedCapabilityKind.eq, beq_iff_eq, ExtendedCapabilityKind.TphRequester.injEq,
        TphRequester.TphRequester.spec, TphRequester.TphRequester.mk.injEq,
        TphRequester.TphRequesterCapability.mk.injEq, h0, h4, TphRequester.StTable.spec, hl, pick,
        BitVec.reduceEq, if_true, if_false, hn, false_and, TphRequester.StTable.Invalid.injEq,
        true_and, and_true]
    · cases hk'
  · cases hk

example : (fld (rd32 [0, 2, 64, 0, 0, 0, 0, 0, 9] 0) 9 2 : U8) = 1 ∧
    64 ≤ (fld (rd32 [0, 2, 64, 0, 0, 0, 0, 0, 9] 0) 16 11 : U16).toNat ∧
    ∃ k, decodeKind 0x100 0x17 [0, 2, 64, 0, 0, 0, 0, 0, 9] [] = .ok k :=
  ⟨by decide, by decide, _, rfl⟩

/-- C96 (the code violates it): Multi-Function Virtual Channels compare equal exactly when all bytes
of the extended space they are read from (its start, C27) to its end are the same. -/
theorem mfvc_eq_all_bytes (o : U16) (s s' d d' : Bytes) (k k' : ExtendedCapabilityKind)
    (hk : decodeKind o 0x08 d s = .ok k) (hk' : decodeKind o 0x08 d' s' = .ok k') :
    k.eq k' = true ↔ s = s' := by
  have inv : ∀ d s k, decodeKind o 0x08 d s = .ok k → ∃ t, MultifunctionVirtualChannel.vcTable s = .ok t ∧
      k = .MultifunctionVirtualChannel (.spec s t) := by
    intro d s k hk
    rw [decodeKind_eq] at hk
    simp only [kindSpec, pick, BitVec.reduceEq, if_true, if_false,
      decodedMultifunctionVirtualChannel] at hk
    split at hk
    · cases hk
    · cases ht : MultifunctionVirtualChannel.vcTable s with
      | ok t =>
        rw [ht] at hk
        exact ⟨t, rfl, (Res.ok.inj hk).symm⟩
      | err e => rw [ht] at hk; cases hk
      | panic => rw [ht] at hk; cases hk
  obtain ⟨t, ht, rfl⟩ := inv _ _ _ hk
  obtain ⟨t', ht', rfl⟩ := inv _ _ _ hk'
  rw [ExtendedCapabilityKind.eq, mfvc_eq_iff]
  constructor
  · intro h
    exact congrArg (fun x => x.extended_virtual_channels.data) h
  · rintro rfl
    rw [ht] at ht'
    cases ht'
    rfl

example : (∃ k, decodeKind 0x100 0x08 [] (List.replicate 16 0) = .ok k) ∧
    ∃ k, decodeKind 0x100 0x08 [] (List.replicate 17 0) = .ok k := ⟨⟨_, rfl⟩, _, rfl⟩

end Pcics.ExtendedCapabilities
