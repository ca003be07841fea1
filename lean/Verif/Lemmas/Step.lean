import Verif.Model.Iter
import Verif.Lemmas.Tactics
import Verif.Lemmas.Iter
/- One call of `step` is one of `next`, with the state left behind by `None` added. -/

namespace Pcics
open ResizableBar AccessControlServices ProtocolMultiplexing SecondaryPciExpress
  RootComplexLinkDeclaration

theorem ResizableBar.step_next (s : ResizableBar.ResizableBar) :
    s.next = (s.step.1.map fun a => (a, s.step.2)) := by
  unfold ResizableBar.next ResizableBar.step
  rcases chunk 8 s.val with _ | ⟨c, r⟩
  · rfl
  · simp only [Option.bind_eq_bind, Option.bind_some]
    split <;> simp_all

theorem EgressControlVectors.step_next (s : EgressControlVectors) :
    s.next = (s.step.1.map fun a => (a, s.step.2)) := by
  unfold EgressControlVectors.next EgressControlVectors.step
  by_cases h : s.size = 0
  · simp [h]
  · by_cases hm : s.mask = 1
    · rcases hc : chunk 4 s.chunks with _ | ⟨c, r⟩ <;> simp [h, hm, hc]
    · simp only [if_neg h, if_neg hm, Option.map_some, Option.bind_eq_bind, Option.bind_some]

theorem PmuxProtocolArray.step_next (s : PmuxProtocolArray) :
    s.next = (s.step.1.map fun a => (a, s.step.2)) := by
  unfold PmuxProtocolArray.next PmuxProtocolArray.step
  rcases chunk 4 s.val with _ | ⟨c, r⟩
  · rfl
  · simp only [Option.bind_eq_bind, Option.bind_some]
    split <;> simp_all

theorem EqualizationControlLanes.step_next (s : EqualizationControlLanes) :
    s.next = (s.step.1.map fun a => (a, s.step.2)) := by
  unfold EqualizationControlLanes.next EqualizationControlLanes.step
  rcases chunk 2 s.chunks with _ | ⟨c, r⟩
  · rfl
  · simp only [Option.bind_eq_bind, Option.bind_some]
    split <;> simp_all

theorem LinkEntries.step_next (s : LinkEntries) :
    s.next = (s.step.1.map fun a => (a, s.step.2)) := by
  unfold LinkEntries.next LinkEntries.step
  rcases chunk 16 s.chunks with _ | ⟨c, r⟩
  · rfl
  · simp only [Option.bind_eq_bind, Option.bind_some]
    split <;> simp_all

theorem VcArbitrationTable.step_next (s : VirtualChannel.VcArbitrationTable) :
    s.next = (s.step.1.map fun a => (a, s.step.2)) := by
  unfold VirtualChannel.VcArbitrationTable.next VirtualChannel.VcArbitrationTable.step
  obtain ⟨d, v⟩ := s
  cases v <;> cases d <;> rfl

theorem PortArbitrationTable.step_next (s : VirtualChannel.PortArbitrationTable) :
    s.next = (s.step.1.map fun a => (a, s.step.2)) := by
  unfold VirtualChannel.PortArbitrationTable.next VirtualChannel.PortArbitrationTable.step
  by_cases h : s.entry_size_bits = 8
  · simp only [h, if_true]; cases s.data <;> rfl
  · by_cases hs : s.shift = 0
    · simp only [h, if_false, hs, if_true]; cases s.data <;> simp
    · simp [h, hs]

theorem ExtendedVirtualChannels.step_next (s : VirtualChannel.ExtendedVirtualChannels) :
    s.next = (s.step.1.map fun a => (a, s.step.2)) := by
  unfold VirtualChannel.ExtendedVirtualChannels.next VirtualChannel.ExtendedVirtualChannels.step
  by_cases h : s.count = 0
  · simp [h]
  · rcases hc : getRange s.data s.offset (s.offset + 12) with _ | c <;> simp only [if_neg h] <;> rfl

theorem FunctionArbitrationTable.step_next
    (s : MultifunctionVirtualChannel.FunctionArbitrationTable) :
    s.next = (s.step.1.map fun a => (a, s.step.2)) := by
  unfold MultifunctionVirtualChannel.FunctionArbitrationTable.next
    MultifunctionVirtualChannel.FunctionArbitrationTable.step
  by_cases h : s.entry_size_bits = 8
  · simp only [h, if_true]; cases s.data <;> rfl
  · by_cases hs : s.shift = 0
    · simp only [h, if_false, hs, if_true]; cases s.data <;> simp
    · simp [h, hs]

theorem MfvcExtendedVirtualChannels.step_next
    (s : MultifunctionVirtualChannel.ExtendedVirtualChannels) :
    s.next = (s.step.1.map fun a => (a, s.step.2)) := by
  unfold MultifunctionVirtualChannel.ExtendedVirtualChannels.next
    MultifunctionVirtualChannel.ExtendedVirtualChannels.step
  by_cases h : s.count = 0
  · simp [h]
  · rcases hc : getFrom s.data s.offset with _ | c
    · simp [h]
    · rcases he : MultifunctionVirtualChannel.ExtendedVirtualChannel.ofBytes c with _ | e <;>
        simp only [if_neg h, Option.bind_eq_bind, Option.bind_some, he, Option.map_some, Option.bind_none, Option.map_none]

theorem rebar_rest (s : ResizableBar.ResizableBar) : s.step.2.val = s.val.drop 8 := by
  unfold ResizableBar.ResizableBar.step
  by_cases h : s.val = []
  · simp [h, chunk_nil]
  · simp only [chunk_ne h]
    split <;> rfl

theorem rebar_none (s : ResizableBar.ResizableBar) : s.step.1 = none ↔ s.val.length < 8 := by
  unfold ResizableBar.ResizableBar.step
  by_cases h : s.val = []
  · simp [h, chunk_nil]
  · simp only [chunk_ne h]
    bytes_norm [chunk_nil]
    by_cases hl : 8 ≤ s.val.length
    · rw [if_pos (by simp only [List.length_take]; omega)]
      simp only [reduceCtorEq, false_iff]; omega
    · rw [if_neg (by simp only [List.length_take]; omega)]
      simp only [true_iff]; omega

theorem pmux_rest (s : ProtocolMultiplexing.PmuxProtocolArray) : s.step.2.val = s.val.drop 4 := by
  unfold ProtocolMultiplexing.PmuxProtocolArray.step
  by_cases h : s.val = []
  · simp [h, chunk_nil]
  · simp only [chunk_ne h]
    split <;> rfl

theorem pmux_none (s : ProtocolMultiplexing.PmuxProtocolArray) : s.step.1 = none ↔ s.val.length < 4 := by
  unfold ProtocolMultiplexing.PmuxProtocolArray.step
  by_cases h : s.val = []
  · simp [h, chunk_nil]
  · simp only [chunk_ne h]
    bytes_norm [chunk_nil]
    by_cases hl : 4 ≤ s.val.length
    · rw [if_pos (by simp only [List.length_take]; omega)]
      simp only [reduceCtorEq, false_iff]; omega
    · rw [if_neg (by simp only [List.length_take]; omega)]
      simp only [true_iff]; omega

theorem lanes_rest (s : SecondaryPciExpress.EqualizationControlLanes) : s.step.2.chunks = s.chunks.drop 2 := by
  unfold SecondaryPciExpress.EqualizationControlLanes.step
  by_cases h : s.chunks = []
  · simp [h, chunk_nil]
  · simp only [chunk_ne h]
    split <;> rfl

theorem lanes_none (s : SecondaryPciExpress.EqualizationControlLanes) :
    s.step.1 = none ↔ s.chunks.length < 2 := by
  unfold SecondaryPciExpress.EqualizationControlLanes.step
  obtain ⟨_ | ⟨a, _ | ⟨b, c⟩⟩⟩ := s <;> simp [chunk]

theorem links_rest (s : RootComplexLinkDeclaration.LinkEntries) : s.step.2.chunks = s.chunks.drop 16 := by
  unfold RootComplexLinkDeclaration.LinkEntries.step
  by_cases h : s.chunks = []
  · simp [h, chunk_nil]
  · simp only [chunk_ne h]
    split <;> rfl

theorem links_none (s : RootComplexLinkDeclaration.LinkEntries) : s.step.1 = none ↔ s.chunks.length < 16 := by
  unfold RootComplexLinkDeclaration.LinkEntries.step
  by_cases h : s.chunks = []
  · simp [h, chunk_nil]
  · simp only [chunk_ne h]
    bytes_norm [chunk_nil]
    by_cases hl : 16 ≤ s.chunks.length
    · rw [if_pos (by simp only [List.length_take]; omega)]
      simp only [reduceCtorEq, false_iff]; omega
    · rw [if_neg (by simp only [List.length_take]; omega)]
      simp only [true_iff]; omega

end Pcics
