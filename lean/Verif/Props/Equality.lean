import Verif.Lemmas.Equality
import Verif.Props.Ext.RootComplexLinkDeclaration
/- Theorems about the hand-written comparisons of iterators -/

namespace Pcics

/-- C67: Egress Control Vectors are equal exactly when nothing distinguishes them, bytes left and
position in the current dword included. -/
theorem EgressControlVectors_eq_iff (a b : AccessControlServices.EgressControlVectors) :
    a.eq b = true ↔ a = b := by
  obtain ⟨c, d, m, n⟩ := a
  obtain ⟨c', d', m', n'⟩ := b
  simp [AccessControlServices.EgressControlVectors.eq, chunksEq_iff, and_assoc]

example : (AccessControlServices.EgressControlVectors.new [1, 2, 3, 4, 5] 33).eq
    (.new [1, 2, 3, 4, 6] 33) = false := by decide

/-- C67: Function Arbitration Tables are equal exactly when nothing distinguishes them, the byte
being split up included. -/
theorem FunctionArbitrationTable_eq_iff (a b : MultifunctionVirtualChannel.FunctionArbitrationTable) :
    a.eq b = true ↔ a = b := by
  obtain ⟨c, d, m, n⟩ := a
  obtain ⟨c', d', m', n'⟩ := b
  simp [MultifunctionVirtualChannel.FunctionArbitrationTable.eq, bytesEq_iff, and_assoc]

example : (⟨[1], 4, 4, 0x10⟩ : MultifunctionVirtualChannel.FunctionArbitrationTable).eq
    ⟨[1], 4, 4, 0x20⟩ = false := by decide

/-- C67: PMUX protocol arrays are equal exactly when the bytes left are. -/
theorem PmuxProtocolArray_eq_iff (a b : ProtocolMultiplexing.PmuxProtocolArray) :
    a.eq b = true ↔ a = b := by
  obtain ⟨c⟩ := a
  obtain ⟨c'⟩ := b
  simp [ProtocolMultiplexing.PmuxProtocolArray.eq, chunksEq_iff]

example : (ProtocolMultiplexing.PmuxProtocolArray.mk [1, 2, 3, 4, 5]).eq ⟨[1, 2, 3, 4]⟩ = false := by
  decide

/-- C67: Resizable BAR arrays are equal exactly when the bytes left are. -/
theorem ResizableBar_eq_iff (a b : ResizableBar.ResizableBar) : a.eq b = true ↔ a = b := by
  obtain ⟨c⟩ := a
  obtain ⟨c'⟩ := b
  simp [ResizableBar.ResizableBar.eq, chunksEq_iff]

example : (ResizableBar.ResizableBar.mk [1, 2, 3, 4, 5, 6, 7, 8, 9]).eq
    ⟨[1, 2, 3, 4, 5, 6, 7, 8, 8]⟩ = false := by decide

/-- C67: VC Arbitration Tables are equal exactly when nothing distinguishes them, the entry held
back included. -/
theorem VcArbitrationTable_eq_iff (a b : VirtualChannel.VcArbitrationTable) :
    a.eq b = true ↔ a = b := by
  obtain ⟨c, d⟩ := a
  obtain ⟨c', d'⟩ := b
  simp [VirtualChannel.VcArbitrationTable.eq, bytesEq_iff]

example : (VirtualChannel.VcArbitrationTable.mk [1] none).eq ⟨[1], some (VirtualChannel.VatEntryPair.ofU8 3).next⟩ = false := by
  decide

/-- C67: Link Entries are equal exactly when they yield the same items. -/
theorem LinkEntries_eq_iff (a b : RootComplexLinkDeclaration.LinkEntries) :
    a.eq b = true ↔ ∀ k, takeIter RootComplexLinkDeclaration.LinkEntries.next k a =
      takeIter RootComplexLinkDeclaration.LinkEntries.next k b := by
  refine iterEq_all RootComplexLinkDeclaration.LinkEntries.next (fun s => s.chunks.length) ?_ a b
  rintro ⟨c, st⟩ x ⟨c', st'⟩ h
  by_cases hl : 16 ≤ c.length
  · rw [RootComplexLinkDeclaration.le_next c st hl] at h
    cases h
    simp only [List.length_drop]; omega
  · rw [RootComplexLinkDeclaration.le_next_short c st (by omega)] at h
    cases h

/-- C67 (the code violates it): Link Entries of different `state`, a public field, are equal: a
complete table of one entry, and the first of two entries whose second is missing. -/
theorem LinkEntries_eq_ignores_state :
    ∃ d : Bytes, (RootComplexLinkDeclaration.LinkEntries.new d 1).eq (.new d 2) = true ∧
      (RootComplexLinkDeclaration.LinkEntries.new d 1).state ≠
        (RootComplexLinkDeclaration.LinkEntries.new d 2).state :=
  ⟨[1, 0, 2, 3, 0, 0, 0, 0, 0, 0, 0, 0xfe, 0, 0, 0, 0], by decide +kernel⟩

/-- C67 (the code violates it): Port Arbitration Tables are compared without the byte being split
up. The tables `[0x10]` and `[0x20]` of 4-bit entries are equal after one entry, yet the next entry
is 1 in one and 2 in the other. -/
theorem PortArbitrationTable_eq_ignores_byte :
    ∃ (a b : VirtualChannel.PortArbitrationTable) (x y : VirtualChannel.PortArbitrationTableEntry),
      (VirtualChannel.PortArbitrationTable.new [0x10] 4).next = some (x, a) ∧
      (VirtualChannel.PortArbitrationTable.new [0x20] 4).next = some (y, b) ∧
      a.eq b = true ∧
      takeIter VirtualChannel.PortArbitrationTable.next 1 a ≠
        takeIter VirtualChannel.PortArbitrationTable.next 1 b :=
  ⟨⟨[], 4, 4, 0x10⟩, ⟨[], 4, 4, 0x20⟩, ⟨0⟩, ⟨0⟩, by decide, by decide, by decide, by decide⟩

/-- C67: exactly what equality of Port Arbitration Tables compares. -/
theorem PortArbitrationTable_eq_iff (a b : VirtualChannel.PortArbitrationTable) :
    a.eq b = true ↔
      a.data = b.data ∧ a.entry_size_bits = b.entry_size_bits ∧ a.shift = b.shift := by
  simp [VirtualChannel.PortArbitrationTable.eq, bytesEq_iff, and_assoc]

/-- C67 (what is missing: tables in the middle of a byte, for which it is false by
`PortArbitrationTable_eq_ignores_byte`): equal Port Arbitration Tables at a byte boundary, as every
new table is, yield the same items. -/
theorem PortArbitrationTable_eq_items_partial (a b : VirtualChannel.PortArbitrationTable)
    (h : a.eq b = true) (h0 : a.shift = 0) (k : Nat) :
    takeIter VirtualChannel.PortArbitrationTable.next k a =
      takeIter VirtualChannel.PortArbitrationTable.next k b := by
  rw [PortArbitrationTable_eq_iff] at h
  obtain ⟨d, z, s, y⟩ := a
  obtain ⟨d', z', s', y'⟩ := b
  simp only at h h0
  obtain ⟨rfl, rfl, rfl⟩ := h
  subst h0
  cases k with
  | zero => rfl
  | succ k =>
    rw [takeIter, takeIter]
    by_cases h8 : z = 8
    · subst h8
      induction d generalizing k with
      | nil => rfl
      | cons v d ih =>
        simp only [VirtualChannel.PortArbitrationTable.next, if_true]
        cases k with
        | zero => rfl
        | succ k => rw [takeIter, takeIter, ih]
    · cases d with
      | nil => simp [VirtualChannel.PortArbitrationTable.next, h8]
      | cons v d => simp [VirtualChannel.PortArbitrationTable.next, h8]

example : (VirtualChannel.PortArbitrationTable.new [0x21, 0x43] 4).eq (.new [0x21, 0x43] 4) = true
    ∧ takeIter VirtualChannel.PortArbitrationTable.next 9 (.new [0x21, 0x43] 4)
      = [⟨1⟩, ⟨2⟩, ⟨3⟩, ⟨4⟩] := by decide

end Pcics
