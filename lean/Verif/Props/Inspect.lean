import Verif.Model.Capabilities
import Verif.Model.ExtendedCapabilities
import Verif.Props.Accessors
import Verif.Props.Cap.Small
import Verif.Props.Cap.PciX
import Verif.Props.Cap.MessageSignaledInterrups
import Verif.Props.Ext.ReadinessTimeReporting
import Verif.Props.Ext.VirtualChannel
import Verif.Props.Ext.MultifunctionVirtualChannel
import Verif.Props.Capabilities
import Verif.Model.Iter
import Verif.Lemmas.Step
import Verif.Spec.Iter
/- C93: what the walks have found can be asked for its derived values without a panic. -/

namespace Pcics

open Spec

theorem map_ok_inv {ε ε' α β : Type} {r : Res ε α} {f : α → β} {g : ε → ε'} {b : β}
    (h : (r.map' f).mapErr g = .ok b) : ∃ a, r = .ok a ∧ f a = b := by
  cases r <;> simp only [Res.map', Res.mapErr, Res.ok.injEq, reduceCtorEq] at h
  exact ⟨_, rfl, h⟩

/-- What a kind with checked accessors comes from. -/
def CapabilityKind.Decoded : CapabilityKind → Prop
  | .Sata s => ∃ d, Sata.ofBytes d = .ok s
  | .MessageSignaledInterrups m => ∃ d, MessageSignaledInterrups.MessageSignaledInterrups.ofBytes d = .ok m
  | .PciX x => ∃ d, PciX.PciX.ofBytes d = .ok x
  | .PciXBridge x => ∃ d, PciX.PciXBridge.ofBytes d = .ok x
  | _ => True

theorem decodeKind_decoded (h : Header.Header) (p id : U8) (d : Bytes) (k : CapabilityKind)
    (hk : decodeKind h p id d = .ok k) : k.Decoded := by
  unfold decodeKind at hk
  split at hk
  all_goals try (split at hk)
  all_goals first
    | (obtain ⟨a, ha, rfl⟩ := map_ok_inv hk; first | exact ⟨_, ha⟩ | trivial)
    | (simp only [Res.ok.injEq] at hk; subst hk; trivial)

theorem next_decoded (s : Capabilities) (c : Capability) (h : s.next.1 = some (.ok c)) :
    c.kind.Decoded := by
  unfold Capabilities.next parseCap at h
  split at h
  · dsimp only at h
    split at h
    · simp at h
    · split at h
      · simp only [Option.some.injEq] at h
        cases hk : decodeKind s.header s.pointer _ _ with
        | ok k =>
          rw [hk] at h
          simp only [Res.map', Res.ok.injEq] at h
          subst h
          exact decodeKind_decoded _ _ _ _ _ hk
        | err e => rw [hk] at h; simp [Res.map'] at h
        | panic => rw [hk] at h; simp [Res.map'] at h
      · simp at h
  · simp at h

/-- C93: every derived value of a capability found by the walk is there: the BAR offset of Serial ATA,
both vector counts of MSI, byte counts, split transactions and cumulative sizes of PCI-X, the bus
mode code of a PCI-X bridge, each without a panic. -/
theorem cap_derived_values (d : Bytes) (h : Header.Header) (k : Nat) (c : Capability)
    (hi : (Capabilities.new d h).item k = some (.ok c)) :
    match c.kind with
    | .Sata s => ∃ v, (s.bar_offset.value : Res Unit U32) = .ok v
    | .MessageSignaledInterrups m =>
      (∃ v, (m.message_control.multiple_message_capable.number_of_vectors : Res Unit U8) = .ok v) ∧
      ∃ v, (m.message_control.multiple_message_enable.number_of_vectors : Res Unit U8) = .ok v
    | .PciX x =>
      (∃ v, x.command.maximum_memory_read_byte_count.value = .ok v) ∧
      (∃ v, x.command.maximum_outstanding_split_transactions.value = .ok v) ∧
      (∃ v, x.status.designed_maximum_memory_read_byte_count.value = .ok v) ∧
      (∃ v, x.status.designed_maximum_outstanding_split_transactions.value = .ok v) ∧
      (∃ v, x.status.designed_maximum_cumulative_read_size.adqs = .ok v) ∧
      ∃ v, x.status.designed_maximum_cumulative_read_size.bytes = .ok v
    | .PciXBridge x => ∃ v, x.secondary_status.secondary_bus_mode_and_frequency = .ok v
    | _ => True := by
  have hd := next_decoded _ _ hi
  unfold CapabilityKind.Decoded at hd
  split at hd
  · obtain ⟨d, hd⟩ := hd
    obtain ⟨v, hv, -⟩ := Sata_value d _ hd
    exact ⟨v, hv⟩
  · obtain ⟨d, hd⟩ := hd
    obtain ⟨⟨v, hv, -⟩, w, hw, -⟩ := MessageSignaledInterrups.number_of_vectors_pow d _ hd
    exact ⟨⟨v, hv⟩, w, hw⟩
  · obtain ⟨d, hd⟩ := hd
    rw [PciX.PciX_bytes] at hd
    split at hd
    · cases hd
    split at hd
    · cases hd
    split at hd
    · cases hd
    cases hd
    have h1 := PciX.pcix_command_values (rd16 d 0)
    have h2 := PciX.pcix_values (rd32 d 2)
    obtain ⟨n, -, h3⟩ := PciX.pcix_cumulative_bytes_in_kb (rd32 d 2)
    rw [PciX.Command_layout] at h1
    rw [PciX.Status_layout] at h2 h3
    exact ⟨⟨_, h1.1⟩, ⟨_, h1.2⟩, ⟨_, h2.1⟩, ⟨_, h2.2.1⟩, ⟨_, h2.2.2⟩, ⟨_, h3⟩⟩
  · obtain ⟨d, hd⟩ := hd
    rw [PciX.PciXBridge_bytes] at hd
    split at hd
    · cases hd
    split at hd
    · cases hd
    split at hd
    · cases hd
    cases hd
    exact ⟨_, PciX.pcix_mode_and_frequency (rd16 d 0) _ (PciX.SecondaryStatus_layout (ε := Empty) _)⟩
  · trivial

/-- A Serial ATA capability whose BAR offset has all bits set. -/
example : (Capabilities.new [0x12, 0, 0x10, 0, 0xff, 0xff, 0xff, 0] (sampleHeader 0x40)).item 0 =
    some (.ok ⟨0x40, .Sata ⟨⟨0, 1⟩, ⟨0xfffff⟩, .SataCapability1⟩⟩) := by decide +kernel

/-! ### Extended capabilities -/

open ExtendedCapabilities (ExtendedCapabilityKind ExtendedCapability) in
/-- What a kind with checked accessors comes from. -/
def ExtendedCapabilities.ExtendedCapabilityKind.Decoded : ExtendedCapabilityKind → Prop
  | .ReadinessTimeReporting r =>
    ∃ d, ReadinessTimeReporting.ReadinessTimeReporting.ofBytes d = .ok r
  | .VirtualChannel v => ∃ d, VirtualChannel.VirtualChannel.ofBytes d = .ok v
  | .VirtualChannelMfvcPresent v => ∃ d, VirtualChannel.VirtualChannel.ofBytes d = .ok v
  | .MultifunctionVirtualChannel m =>
    ∃ d, MultifunctionVirtualChannel.MultifunctionVirtualChannel.ofBytes d = .ok m
  | _ => True

theorem ecap_decodeKind_decoded (o id : U16) (d s : Bytes)
    (k : ExtendedCapabilities.ExtendedCapabilityKind)
    (hk : ExtendedCapabilities.decodeKind o id d s = .ok k) : k.Decoded := by
  unfold ExtendedCapabilities.decodeKind at hk
  split at hk
  all_goals first
    | (obtain ⟨a, ha, rfl⟩ := map_ok_inv hk; first | exact ⟨_, ha⟩ | trivial)
    | (simp only [Res.ok.injEq] at hk; subst hk; trivial)

theorem ecap_next_decoded (s : ExtendedCapabilities.ExtendedCapabilities)
    (c : ExtendedCapabilities.ExtendedCapability) (h : s.next.1 = some (.ok c)) :
    c.kind.Decoded := by
  unfold ExtendedCapabilities.ExtendedCapabilities.next at h
  split at h
  · simp at h
  split at h
  · simp at h
  · rename_i v o _ hp
    simp only [Option.some.injEq] at h
    subst h
    unfold ExtendedCapabilities.parseEcap at hp
    dsimp only at hp
    split at hp
    · simp at hp
    split at hp
    · split at hp
      · simp at hp
      · split at hp
        · simp only [Prod.mk.injEq] at hp
          obtain ⟨hp, -⟩ := hp
          cases hk : ExtendedCapabilities.decodeKind s.next_capability_offset _ _ _ with
          | ok k =>
            rw [hk] at hp
            simp only [Res.map', Res.ok.injEq] at hp
            subst hp
            exact ecap_decodeKind_decoded _ _ _ _ _ hk
          | err e => rw [hk] at hp; simp [Res.map'] at hp
          | panic => rw [hk] at hp; simp [Res.map'] at hp
        · simp at hp
    · simp at hp
    · simp at hp

theorem function_table_size (t : MultifunctionVirtualChannel.FunctionArbitrationTable) (n : Nat) :
    (callsAfter MultifunctionVirtualChannel.FunctionArbitrationTable.step n t).entry_size_bits =
      t.entry_size_bits := by
  induction n generalizing t with
  | zero => rfl
  | succ n ih =>
    rw [callsAfter, ih]
    unfold MultifunctionVirtualChannel.FunctionArbitrationTable.step
    dsimp only
    split
    · split <;> rfl
    · split
      · split <;> rfl
      · rfl

theorem port_table_size (t : VirtualChannel.PortArbitrationTable) (n : Nat) :
    (callsAfter VirtualChannel.PortArbitrationTable.step n t).entry_size_bits =
      t.entry_size_bits := by
  induction n generalizing t with
  | zero => rfl
  | succ n ih =>
    rw [callsAfter, ih]
    unfold VirtualChannel.PortArbitrationTable.step
    dsimp only
    split
    · split <;> rfl
    · split
      · split <;> rfl
      · rfl

theorem mfvc_step_tables (s : MultifunctionVirtualChannel.ExtendedVirtualChannels) :
    s.step.2.fat_entry_bits = s.fat_entry_bits ∧
    ∀ evc t, s.step.1 = some evc → evc.function_arbitration_table = some t →
      t.entry_size_bits = s.fat_entry_bits := by
  unfold MultifunctionVirtualChannel.ExtendedVirtualChannels.step
  split
  · simp
  split
  · simp
  split
  · simp
  · rename_i evc he
    refine ⟨rfl, ?_⟩
    intro e t h1 h2
    simp only [Option.some.injEq] at h1
    subst h1
    split at h2
    · simp only [Option.map_eq_some_iff] at h2
      obtain ⟨_, _, rfl⟩ := h2
      rfl
    · have : evc.function_arbitration_table = none := by
        unfold MultifunctionVirtualChannel.ExtendedVirtualChannel.ofBytes at he
        simp only [Option.bind_eq_bind, Option.bind_eq_some_iff, Option.some.injEq] at he
        obtain ⟨_, _, rfl⟩ := he
        rfl
      rw [this] at h2
      cases h2

theorem mfvc_tables (n : Nat) (s : MultifunctionVirtualChannel.ExtendedVirtualChannels)
    (evc : MultifunctionVirtualChannel.ExtendedVirtualChannel)
    (t : MultifunctionVirtualChannel.FunctionArbitrationTable)
    (he : evc ∈ callsItems MultifunctionVirtualChannel.ExtendedVirtualChannels.step n s)
    (ht : evc.function_arbitration_table = some t) : t.entry_size_bits = s.fat_entry_bits := by
  induction n generalizing s with
  | zero => simp [callsItems] at he
  | succ n ih =>
    simp only [callsItems, List.mem_append, Option.mem_toList] at he
    rcases he with he | he
    · exact (mfvc_step_tables s).2 evc t he ht
    · rw [ih _ he, (mfvc_step_tables s).1]

theorem readiness_ok {ε : Type} (t : ReadinessTimeReporting.ReadinessTime) (h : t.scale.toNat < 8) :
    ∃ v, (t.actualTimeValue : Res ε U64) = .ok v := by
  cases hv : (t.actualTimeValue : Res ε U64) with
  | ok v => exact ⟨v, rfl⟩
  | panic =>
    rw [ReadinessTimeReporting.ReadinessTime_actual_panics] at hv
    omega
  | err e =>
    unfold ReadinessTimeReporting.ReadinessTime.actualTimeValue at hv
    split at hv <;> cases hv

/-- The VC resources of a Virtual Channel capability are there, and whichever of its port arbitration
tables can be had is walked without a panic, however far. -/
def VirtualChannel.VirtualChannel.Inspectable (vc : VirtualChannel.VirtualChannel) : Prop :=
  (∃ it, vc.extended_virtual_channels (ε := Empty) = .ok it) ∧
  (∃ n, vc.port_vc_capability_1.port_arbitration_table_entry_size.bitsChecked = .ok n) ∧
  ∀ evc t, vc.port_arbitration_table (ε := Empty) evc = .ok t →
    ∀ n, (callsAfter VirtualChannel.PortArbitrationTable.step n t).nextChecked ≠ .panic

theorem vc_inspectable (d : Bytes) (vc : VirtualChannel.VirtualChannel)
    (h : VirtualChannel.VirtualChannel.ofBytes d = .ok vc) : vc.Inspectable := by
  have hs : vc.port_vc_capability_1 = .spec (rd32 d 0) := by
    rw [VirtualChannel.VirtualChannel_bytes] at h
    split at h
    · cases h; rfl
    · cases h
  obtain ⟨he, hl⟩ := VirtualChannel.entry_size_bits (rd32 d 0)
  have h8 : vc.port_vc_capability_1.port_arbitration_table_entry_size.bits ≤ 8 := by
    rw [hs, he]
    exact Nat.pow_le_pow_right (by omega) (show _ ≤ 3 by omega)
  refine ⟨?_, ?_, ?_⟩
  · obtain ⟨it, hit, -⟩ := VirtualChannel.extended_virtual_channels_items d vc h 0
    exact ⟨it, hit⟩
  · rw [hs]
    unfold VirtualChannel.PortArbitrationTableEntrySize.bitsChecked
    exact ⟨_, if_pos (show (fld (rd32 d 0) 10 2 : U8).toNat < 64 by omega)⟩
  · intro evc t ht n hp
    rw [(Accessors.port_table_panics _).1, port_table_size] at hp
    have : t.entry_size_bits = vc.port_vc_capability_1.port_arbitration_table_entry_size.bits := by
      unfold VirtualChannel.VirtualChannel.port_arbitration_table at ht
      dsimp only at ht
      split at ht
      · cases ht
      · cases hr : getRange vc.data
            (evc.vc_resource_capability.port_arbitration_table_offset.toNat * 16 - 4)
            (evc.vc_resource_capability.port_arbitration_table_offset.toNat * 16 - 4 +
              vc.port_vc_capability_1.port_arbitration_table_entry_size.bits *
                evc.vc_resource_control.port_arbitration_select.port_arbitration_table_length / 8) with
        | none => rw [hr] at ht; cases ht
        | some r => rw [hr] at ht; cases ht; rfl
    omega

/-- C93: every derived value of an extended capability found by the walk is there, without a panic: the
four times of Readiness Time Reporting, the VC resources of a Virtual Channel capability and every
step over a port arbitration table that can be had (which can not: C43), the entry size of a
Multi-Function Virtual Channel capability and every step over each of its function arbitration
tables. -/
theorem ecap_derived_values (d : Bytes) (k : Nat) (c : ExtendedCapabilities.ExtendedCapability)
    (hi : (ExtendedCapabilities.ExtendedCapabilities.new d).item k = some (.ok c)) :
    match c.kind with
    | .ReadinessTimeReporting r =>
      (∃ v, (r.reset_time.actualTimeValue : Res Unit U64) = .ok v) ∧
      (∃ v, (r.dl_up_time.actualTimeValue : Res Unit U64) = .ok v) ∧
      (∃ v, (r.flr_time.actualTimeValue : Res Unit U64) = .ok v) ∧
      ∃ v, (r.d3hot_to_d0_time.actualTimeValue : Res Unit U64) = .ok v
    | .VirtualChannel vc => vc.Inspectable
    | .VirtualChannelMfvcPresent vc => vc.Inspectable
    | .MultifunctionVirtualChannel m =>
      (∃ n, m.port_vc_capability_1.function_arbitration_table_entry_size.bitsChecked = .ok n) ∧
      ∀ n evc t,
        evc ∈ callsItems MultifunctionVirtualChannel.ExtendedVirtualChannels.step n
          m.extended_virtual_channels →
        evc.function_arbitration_table = some t →
        ∀ j, (callsAfter MultifunctionVirtualChannel.FunctionArbitrationTable.step j t).nextChecked
          ≠ .panic
    | _ => True := by
  have hd := ecap_next_decoded _ _ hi
  unfold ExtendedCapabilities.ExtendedCapabilityKind.Decoded at hd
  split at hd
  · obtain ⟨d, hd⟩ := hd
    rw [ReadinessTimeReporting.ReadinessTimeReporting_bytes] at hd
    split at hd
    · cases hd
      have h3 : ∀ (w : U32) lo, (fld w lo 3 : U8).toNat < 8 := by
        intro w lo
        simp only [fld, BitVec.toNat_setWidth, BitVec.extractLsb'_toNat]; omega
      exact ⟨readiness_ok _ (h3 _ _), readiness_ok _ (h3 _ _), readiness_ok _ (h3 _ _),
        readiness_ok _ (h3 _ _)⟩
    · cases hd
  · obtain ⟨d, hd⟩ := hd
    exact vc_inspectable d _ hd
  · obtain ⟨d, hd⟩ := hd
    exact vc_inspectable d _ hd
  · obtain ⟨d, hd⟩ := hd
    rw [MultifunctionVirtualChannel.MultifunctionVirtualChannel_bytes] at hd
    split at hd
    · cases hd
    cases hv : MultifunctionVirtualChannel.vcTable d with
    | ok t =>
      rw [hv] at hd
      cases hd
      have hs := MultifunctionVirtualChannel.pow_fld (rd32 d 4)
      refine ⟨?_, ?_⟩
      · have h3 : (fld (rd32 d 4) 10 2 : U8).toNat < 64 := by
          simp only [fld, BitVec.toNat_setWidth, BitVec.extractLsb'_toNat]; omega
        unfold MultifunctionVirtualChannel.FunctionArbitrationTableEntrySize.bitsChecked
        exact ⟨_, if_pos h3⟩
      · intro n evc t he ht j hp
        rw [(Accessors.function_table_panics _).1, function_table_size,
          mfvc_tables n _ evc t he ht] at hp
        have : (MultifunctionVirtualChannel.MultifunctionVirtualChannel.spec d
          ‹_›).extended_virtual_channels.fat_entry_bits = 2 ^ (fld (rd32 d 4) 10 2 : U8).toNat := rfl
        omega
    | err e => rw [hv] at hd; cases hd
    | panic => rw [hv] at hd; cases hd
  · trivial

/-- Readiness Time Reporting with the largest value and scale. -/
example : (ExtendedCapabilities.ExtendedCapabilities.new
    [0x22, 0, 1, 0, 0xff, 0xff, 0xff, 0x80, 0, 0, 0, 0]).item 0 =
    some (.ok ⟨.ReadinessTimeReporting ⟨⟨0x1ff, 7⟩, ⟨0x1ff, 7⟩, true, ⟨0, 0⟩, ⟨0, 0⟩⟩, 1, 0x100⟩) := by
  decide +kernel

end Pcics
