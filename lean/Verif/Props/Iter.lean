import Verif.Lemmas.Fused
import Verif.Lemmas.Step
import Verif.Lemmas.Tactics
import Verif.Lemmas.Iter
import Verif.Props.Bar
import Verif.Props.Capabilities
import Verif.Props.ExtendedCapabilities
import Verif.Props.Cap.EnhancedAllocation
/- C86: the iterators are fused.  C87: the inner iterators end. -/

namespace Pcics

/-- C86: the iterator over resizable BARs is fused. -/
theorem rebar_fused : Fused ResizableBar.ResizableBar.step :=
  fused_of_chunks 8 (·.val) rebar_rest rebar_none

/-- C87: at most one of the resizable BARs is returned per eight bytes. -/
theorem rebar_at_most (s : ResizableBar.ResizableBar) : AtMost ResizableBar.ResizableBar.step (s.val.length / 8) s :=
  atMost_of_chunks 8 (by decide) (·.val) rebar_rest rebar_none s

example : ((callsItems ResizableBar.ResizableBar.step 9 ⟨[1, 0, 0, 0, 0, 0, 0, 0, 2]⟩).length,
    (callsAfter ResizableBar.ResizableBar.step 2 ⟨[1, 0, 0, 0, 0, 0, 0, 0, 2]⟩).val) = (1, []) := by
  decide +kernel

/-- C86: the iterator over PMUX protocols is fused. -/
theorem pmux_fused : Fused ProtocolMultiplexing.PmuxProtocolArray.step :=
  fused_of_chunks 4 (·.val) pmux_rest pmux_none

/-- C87: at most one of the PMUX protocols is returned per four bytes. -/
theorem pmux_at_most (s : ProtocolMultiplexing.PmuxProtocolArray) : AtMost ProtocolMultiplexing.PmuxProtocolArray.step (s.val.length / 4) s :=
  atMost_of_chunks 4 (by decide) (·.val) pmux_rest pmux_none s

example : (callsItems ProtocolMultiplexing.PmuxProtocolArray.step 9 ⟨[1, 0, 2, 0, 3]⟩).length = 1 := by
  decide +kernel

/-- C86: the iterator over lanes is fused. -/
theorem lanes_fused : Fused SecondaryPciExpress.EqualizationControlLanes.step :=
  fused_of_chunks 2 (·.chunks) lanes_rest lanes_none

/-- C87: at most one of the lanes is returned per two bytes. -/
theorem lanes_at_most (s : SecondaryPciExpress.EqualizationControlLanes) : AtMost SecondaryPciExpress.EqualizationControlLanes.step (s.chunks.length / 2) s :=
  atMost_of_chunks 2 (by decide) (·.chunks) lanes_rest lanes_none s

example : (callsItems SecondaryPciExpress.EqualizationControlLanes.step 9 ⟨[1, 2, 3]⟩).length = 1 := by
  decide +kernel

/-- C86: the iterator over link entries is fused. -/
theorem links_fused : Fused RootComplexLinkDeclaration.LinkEntries.step :=
  fused_of_chunks 16 (·.chunks) links_rest links_none

/-- C87: at most one of the link entries is returned per sixteen bytes. -/
theorem links_at_most (s : RootComplexLinkDeclaration.LinkEntries) : AtMost RootComplexLinkDeclaration.LinkEntries.step (s.chunks.length / 16) s :=
  atMost_of_chunks 16 (by decide) (·.chunks) links_rest links_none s

example : (callsItems RootComplexLinkDeclaration.LinkEntries.step 9
    ⟨List.replicate 20 0, .Valid⟩).length = 1 := by decide +kernel

/-- C86: the iterator over egress control vectors is fused. -/
theorem egress_fused : Fused AccessControlServices.EgressControlVectors.step :=
  fused_of_same fun s h => by
    unfold AccessControlServices.EgressControlVectors.step at h ⊢
    split at h
    · simp [*]
    · split at h
      · split at h <;> simp_all
      · simp at h

/-- C87: no more egress control bits are returned than the vector size says. -/
theorem egress_at_most (s : AccessControlServices.EgressControlVectors) :
    AtMost AccessControlServices.EgressControlVectors.step s.size s := by
  refine atMost_of_measure (fun _ => True)
    (fun s : AccessControlServices.EgressControlVectors => s.size) (fun s _ => ⟨trivial, ?_⟩) trivial
  unfold AccessControlServices.EgressControlVectors.step
  by_cases h : s.size = 0
  · simp [h]
  · simp only [if_neg h]
    split
    · split <;> simp <;> omega
    · simp; omega

example : (callsItems AccessControlServices.EgressControlVectors.step 40
    ⟨[1, 2], 0, 1, 35⟩).length = 32 := by decide +kernel

/-- C86: the iterator over a VC arbitration table is fused. -/
theorem vc_table_fused : Fused VirtualChannel.VcArbitrationTable.step :=
  fused_of_same fun s h => by
    obtain ⟨d, v⟩ := s
    cases v <;> cases d <;> first | rfl | cases h

/-- C87: a VC arbitration table gives at most two entries per byte. -/
theorem vc_table_at_most (d : Bytes) :
    AtMost VirtualChannel.VcArbitrationTable.step (2 * d.length) (.new d) := by
  refine atMost_of_measure (fun _ => True) (fun s : VirtualChannel.VcArbitrationTable =>
      2 * s.data.length + s.vate.toList.length)
    (fun s _ => ⟨trivial, ?_⟩) trivial
  obtain ⟨d, v⟩ := s
  cases v <;> cases d <;> simp [VirtualChannel.VcArbitrationTable.step] <;> omega

example : (callsItems VirtualChannel.VcArbitrationTable.step 9 (.new [0x21, 0x43])).length = 4 := by
  decide +kernel

/-- C86: the iterator over a port arbitration table is fused. -/
theorem port_table_fused : Fused VirtualChannel.PortArbitrationTable.step :=
  fused_of_same fun s h => by
    unfold VirtualChannel.PortArbitrationTable.step at h ⊢
    split at h
    · split at h <;> simp_all
    · split at h
      · split at h <;> simp_all
      · simp at h

/-- C86: the iterator over a function arbitration table is fused. -/
theorem function_table_fused : Fused MultifunctionVirtualChannel.FunctionArbitrationTable.step :=
  fused_of_same fun s h => by
    unfold MultifunctionVirtualChannel.FunctionArbitrationTable.step at h ⊢
    split at h
    · split at h <;> simp_all
    · split at h
      · split at h <;> simp_all
      · simp at h

/-- C87: a port arbitration table gives at most eight entries per byte, for every entry size. -/
theorem port_table_at_most (d : Bytes) (n : Nat) :
    AtMost VirtualChannel.PortArbitrationTable.step (8 * d.length) (.new d n) := by
  refine atMost_mono ?_ (atMost_of_measure
    (fun s : VirtualChannel.PortArbitrationTable => s.shift < 8 ∧ left s.shift s.entry_size_bits < 8)
    (fun s => 8 * s.data.length + left s.shift s.entry_size_bits) (fun s hs => ?_)
    ⟨Nat.zero_lt_succ 7, Nat.lt_of_le_of_lt (Nat.le_of_eq (left_zero n)) (Nat.zero_lt_succ 7)⟩)
  · have := left_zero n
    exact Nat.le_of_eq (congrArg (8 * d.length + ·) this)
  · unfold VirtualChannel.PortArbitrationTable.step
    have := left_step hs.1 hs.2
    by_cases h8 : s.entry_size_bits = 8
    · simp only [if_pos h8]
      cases hd : s.data
      · exact ⟨hs, by simp [hd]⟩
      · refine ⟨hs, ?_⟩
        simp
        omega
    · by_cases h0 : s.shift = 0
      · simp only [h0, if_true, Nat.zero_add] at this
        simp only [if_neg h8, if_pos h0]
        cases hd : s.data
        · exact ⟨hs, by simp [hd]⟩
        · refine ⟨⟨Nat.mod_lt _ (by decide), by simp [h0]; omega⟩, ?_⟩
          simp [h0, left_zero]
          omega
      · rw [if_neg h0] at this
        simp only [if_neg h8, if_neg h0]
        refine ⟨⟨Nat.mod_lt _ (by decide), by omega⟩, ?_⟩
        simp only [Option.toList_some, List.length_singleton]
        omega

example : (callsItems VirtualChannel.PortArbitrationTable.step 20 (.new [0x21] 1)).length = 8 := by
  decide +kernel

/-- C87: a function arbitration table gives at most eight entries per byte, for every entry size. -/
theorem function_table_at_most (d : Bytes) (n : Nat) :
    AtMost MultifunctionVirtualChannel.FunctionArbitrationTable.step (8 * d.length) (.new d n) := by
  refine atMost_mono ?_ (atMost_of_measure
    (fun s : MultifunctionVirtualChannel.FunctionArbitrationTable => s.shift < 8 ∧ left s.shift s.entry_size_bits < 8)
    (fun s => 8 * s.data.length + left s.shift s.entry_size_bits) (fun s hs => ?_)
    ⟨Nat.zero_lt_succ 7, Nat.lt_of_le_of_lt (Nat.le_of_eq (left_zero n)) (Nat.zero_lt_succ 7)⟩)
  · have := left_zero n
    exact Nat.le_of_eq (congrArg (8 * d.length + ·) this)
  · unfold MultifunctionVirtualChannel.FunctionArbitrationTable.step
    have := left_step hs.1 hs.2
    by_cases h8 : s.entry_size_bits = 8
    · simp only [if_pos h8]
      cases hd : s.data
      · exact ⟨hs, by simp [hd]⟩
      · refine ⟨hs, ?_⟩
        simp
        omega
    · by_cases h0 : s.shift = 0
      · simp only [h0, if_true, Nat.zero_add] at this
        simp only [if_neg h8, if_pos h0]
        cases hd : s.data
        · exact ⟨hs, by simp [hd]⟩
        · refine ⟨⟨Nat.mod_lt _ (by decide), by simp [h0]; omega⟩, ?_⟩
          simp [h0, left_zero]
          omega
      · rw [if_neg h0] at this
        simp only [if_neg h8, if_neg h0]
        refine ⟨⟨Nat.mod_lt _ (by decide), by omega⟩, ?_⟩
        simp only [Option.toList_some, List.length_singleton]
        omega

example : (callsItems MultifunctionVirtualChannel.FunctionArbitrationTable.step 20
    (.new [0x21] 4)).length = 2 := by decide +kernel

/-- C86: the iterator over the extended virtual channels is fused. -/
theorem evc_fused : Fused VirtualChannel.ExtendedVirtualChannels.step :=
  fused_of_same fun s h => by
    unfold VirtualChannel.ExtendedVirtualChannels.step at h ⊢
    split at h
    · simp [*]
    · split at h <;> simp_all

/-- C87: no more extended virtual channels are returned than the count says. -/
theorem evc_at_most (s : VirtualChannel.ExtendedVirtualChannels) :
    AtMost VirtualChannel.ExtendedVirtualChannels.step s.count.toNat s := by
  refine atMost_of_measure (fun _ => True)
    (fun s : VirtualChannel.ExtendedVirtualChannels => s.count.toNat) (fun s _ => ⟨trivial, ?_⟩) trivial
  unfold VirtualChannel.ExtendedVirtualChannels.step
  by_cases h : s.count = 0
  · simp [h]
  · have h' : s.count.toNat ≠ 0 := fun e => h (BitVec.eq_of_toNat_eq e)
    simp only [if_neg h]
    split <;> simp [BitVec.toNat_sub] <;> omega

example : (callsItems VirtualChannel.ExtendedVirtualChannels.step 9
    ⟨List.replicate 30 0, 5, 0⟩).length = 2 := by decide +kernel

/-- C86: the iterator over the extended virtual channels of MFVC is fused. -/
theorem mfvc_fused : Fused MultifunctionVirtualChannel.ExtendedVirtualChannels.step :=
  fused_of_same fun s h => by
    unfold MultifunctionVirtualChannel.ExtendedVirtualChannels.step at h ⊢
    split at h
    · simp [*]
    · split at h
      · simp_all
      · split at h <;> simp_all

/-- C87: no more extended virtual channels of MFVC are returned than the count says. -/
theorem mfvc_at_most (s : MultifunctionVirtualChannel.ExtendedVirtualChannels) :
    AtMost MultifunctionVirtualChannel.ExtendedVirtualChannels.step s.count.toNat s := by
  refine atMost_of_measure (fun _ => True)
    (fun s : MultifunctionVirtualChannel.ExtendedVirtualChannels => s.count.toNat) (fun s _ => ⟨trivial, ?_⟩) trivial
  unfold MultifunctionVirtualChannel.ExtendedVirtualChannels.step
  by_cases h : s.count = 0
  · simp [h]
  · have h' : s.count.toNat ≠ 0 := fun e => h (BitVec.eq_of_toNat_eq e)
    simp only [if_neg h]
    split
    · simp
    · split <;> simp [BitVec.toNat_sub] <;> omega

example : (callsItems MultifunctionVirtualChannel.ExtendedVirtualChannels.step 9
    { data := List.replicate 60 0, count := 2, fat_entry_bits := 1, offset := 0x10 }).length = 2 := by
  decide +kernel

/-- C86: the iterator over enhanced allocation entries is fused, with and without the feature
`caps_ea_real_entry_size`. -/
theorem ea_fused (real : Bool) :
    Fused (EnhancedAllocation.EnhancedAllocationEntries.step real) :=
  fused_of_again fun s h => by
    have hn : ∀ s : EnhancedAllocation.EnhancedAllocationEntries,
        s.next real = .ok (s.step real) := fun s => by
      unfold EnhancedAllocation.EnhancedAllocationEntries.step
      rw [EnhancedAllocation.ea_next]
    have := EnhancedAllocation.ea_exhausted real s (s.step real).2 (by rw [hn, ← h])
    obtain ⟨s'', h'⟩ := this
    rw [hn, Res.ok.injEq] at h'
    rw [h']

/-- C87: no more enhanced allocation entries are returned than the count says. -/
theorem ea_entries_at_most (real : Bool) (s : EnhancedAllocation.EnhancedAllocationEntries) :
    AtMost (EnhancedAllocation.EnhancedAllocationEntries.step real) s.count.toNat s := by
  refine atMost_of_measure (fun _ => True)
    (fun s : EnhancedAllocation.EnhancedAllocationEntries => s.count.toNat) (fun s _ => ⟨trivial, ?_⟩) trivial
  unfold EnhancedAllocation.EnhancedAllocationEntries.step
  rw [EnhancedAllocation.ea_next]
  by_cases h : s.count = 0
  · simp [h]
  · have h' : s.count.toNat ≠ 0 := fun e => h (BitVec.eq_of_toNat_eq e)
    simp only [h, false_or]
    split
    · simp
    · split <;> simp [BitVec.toNat_sub] <;> omega

example : (callsItems (EnhancedAllocation.EnhancedAllocationEntries.step false) 9
    ⟨2 :: List.replicate 30 0, 5⟩).length = 3 := by decide +kernel

/-- C86: the iterator over base addresses is fused. -/
theorem bar_fused : Fused Header.BaseAddresses.next :=
  fused_of_again fun s h => by rw [Header.bar_exhausted s h]

/-- C87: from any state, no more base addresses are returned than there are slots left. -/
theorem bar_at_most (s : Header.BaseAddresses) :
    AtMost Header.BaseAddresses.next (s.data.length - s.region) s := by
  refine atMost_of_measure (fun _ => True)
    (fun s : Header.BaseAddresses => s.data.length - s.region) (fun s _ => ⟨trivial, ?_⟩) trivial
  rcases Header.bar_next s with ⟨r, w, hr, hw, _, _, h1, h2, h3⟩ | ⟨_, h1, h2, h3⟩
  · have := (List.getElem?_eq_some_iff.mp hw).1
    rw [h1, h2, h3]
    simp only [Option.toList_some, List.length_singleton]
    split <;> omega
  · rw [h1, h2]
    simp only [Option.toList_none, List.length_nil]
    omega

example : (callsItems Header.BaseAddresses.next 9 (.new [0, 1, 4, 0, 8])).length = 3 := by
  decide +kernel

/-- C86: the iterator over capabilities is fused. -/
theorem cap_fused : Fused Capabilities.next :=
  fused_of_same fun s h => by
    unfold Capabilities.next at h ⊢
    split <;> simp_all

/-- C86: the iterator over extended capabilities is fused. -/
theorem ecap_fused : Fused ExtendedCapabilities.ExtendedCapabilities.next :=
  fused_of_again fun s h => ExtendedCapabilities.ecap_stays_ended s h 1

example : ((Header.BaseAddresses.new [0, 1]).next.2.next).1 = none := by decide +kernel

example : ((Capabilities.new [] (sampleHeader 0)).next).1 = none := by decide +kernel

end Pcics
