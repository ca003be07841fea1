import Verif.Lemmas.Calls
import Verif.Props.Iter
import Verif.Props.HeaderEquality
import Verif.Props.Ext.ResizableBar
import Verif.Props.Ext.ProtocolMultiplexing
import Verif.Props.Ext.SecondaryPciExpress
import Verif.Props.Ext.RootComplexLinkDeclaration
import Verif.Props.Ext.AccessControlServices
import Verif.Props.Ext.VirtualChannel
import Verif.Props.Ext.MultifunctionVirtualChannel
/- C97: what each call of `next` returns, for the iterators inside of capabilities. -/

namespace Pcics
open Spec

/-- C97: call `k` on a decoded Resizable BAR capability returns BAR number `k`, or `None`. -/
theorem rebar_calls (d : Bytes) (rb : ResizableBar.ResizableBar)
    (h : ResizableBar.ResizableBar.ofBytes d = .ok rb) (k : Nat) :
    nthCall ResizableBar.ResizableBar.step k rb =
      ((List.range (ResizableBar.numBars d)).map (ResizableBar.ResizableBarEntry.spec d))[k]? :=
  nthCall_of_take ResizableBar.step_next rebar_fused rb _ (ResizableBar.ResizableBar_items d rb h) k

example : (∃ rb, ResizableBar.ResizableBar.ofBytes
      [0, 0, 0, 0, 0xf0, 0, 0, 0, 0x40, 8, 0, 0, 0x10, 0, 0, 0, 0x21, 3, 0, 0] = .ok rb ∧
    (nthCall ResizableBar.ResizableBar.step 1 rb).isSome = true ∧
    nthCall ResizableBar.ResizableBar.step 2 rb = none) := ⟨_, rfl, by decide +kernel, by decide +kernel⟩

/-- C97: call `k` on a decoded protocol array returns entry `k`, or `None`. -/
theorem pmux_calls (d : Bytes) (s : ProtocolMultiplexing.ProtocolMultiplexing)
    (h : ProtocolMultiplexing.ProtocolMultiplexing.ofBytes d = .ok s) (k : Nat) :
    nthCall ProtocolMultiplexing.PmuxProtocolArray.step k s.pmux_protocol_array =
      (ProtocolMultiplexing.entries (d.drop 16) (fld (rd32 d 4) 0 6 : U8).toNat)[k]? :=
  nthCall_of_take PmuxProtocolArray.step_next pmux_fused _ _
    (ProtocolMultiplexing.ProtocolMultiplexing_entries d s h) k

example : ∃ s, ProtocolMultiplexing.ProtocolMultiplexing.ofBytes
      ([0, 0, 0, 0, 1, 0, 0, 0] ++ List.replicate 8 0 ++ [1, 0, 2, 0]) = .ok s ∧
    (nthCall ProtocolMultiplexing.PmuxProtocolArray.step 0 s.pmux_protocol_array).isSome = true ∧
    nthCall ProtocolMultiplexing.PmuxProtocolArray.step 1 s.pmux_protocol_array = none :=
  ⟨_, rfl, by decide +kernel, by decide +kernel⟩

/-- C97: call `k` on the lanes of any bytes returns lane `k`, or `None`; a single last byte is not
returned. -/
theorem lanes_calls (c : Bytes) (k : Nat) :
    nthCall SecondaryPciExpress.EqualizationControlLanes.step k ⟨c⟩ =
      (SecondaryPciExpress.lanes c (c.length / 2))[k]? :=
  nthCall_of_take EqualizationControlLanes.step_next lanes_fused _ _
    (fun k => SecondaryPciExpress.ecl_take k c) k

example : (nthCall SecondaryPciExpress.EqualizationControlLanes.step 1 ⟨[1, 2, 3, 4, 5]⟩).isSome = true ∧
    nthCall SecondaryPciExpress.EqualizationControlLanes.step 2 ⟨[1, 2, 3, 4, 5]⟩ = none := by
  decide +kernel

/-- C97: call `k` on the link entries of a decoded declaration returns link `k`, or `None`. -/
theorem links_calls (d : Bytes) (r : RootComplexLinkDeclaration.RootComplexLinkDeclaration)
    (h : RootComplexLinkDeclaration.RootComplexLinkDeclaration.ofBytes d = .ok r) (k : Nat) :
    nthCall RootComplexLinkDeclaration.LinkEntries.step k r.link_entries =
      ((List.range (min (RootComplexLinkDeclaration.announced d) ((d.length - 12) / 16))).map fun i =>
        RootComplexLinkDeclaration.LinkEntry.spec d (12 + 16 * i))[k]? :=
  nthCall_of_take LinkEntries.step_next links_fused _ _
    (RootComplexLinkDeclaration.LinkEntries_items d r h) k

example : ∃ r, RootComplexLinkDeclaration.RootComplexLinkDeclaration.ofBytes
      ([0, 1, 0, 0] ++ List.replicate 24 0) = .ok r ∧
    (nthCall RootComplexLinkDeclaration.LinkEntries.step 0 r.link_entries).isSome = true :=
  ⟨_, rfl, by decide +kernel⟩

/-- C97: call `k` on a new egress control vector returns bit `k`, or `None`. -/
theorem egress_calls (d : Bytes) (size k : Nat) :
    nthCall AccessControlServices.EgressControlVectors.step k (.new d size) =
      ((List.range (min size (32 * ((d.length + 3) / 4)))).map
        (AccessControlServices.vectorBit d))[k]? :=
  nthCall_of_take EgressControlVectors.step_next egress_fused _ _
    (AccessControlServices.EgressControlVectors_items d size) k

example : nthCall AccessControlServices.EgressControlVectors.step 1 (.new [2, 0, 0, 0] 3) = some true ∧
    nthCall AccessControlServices.EgressControlVectors.step 3 (.new [2, 0, 0, 0] 3) = none := by
  decide +kernel

/-- C97: call `k` on a new VC arbitration table returns phase `k`, or `None`. -/
theorem vc_table_calls (t : Bytes) (k : Nat) :
    nthCall VirtualChannel.VcArbitrationTable.step k (.new t) =
      (VirtualChannel.vcArbitrationEntries t)[k]? :=
  nthCall_of_take VcArbitrationTable.step_next vc_table_fused _ _
    (VirtualChannel.VcArbitrationTable_items t) k

example : (nthCall VirtualChannel.VcArbitrationTable.step 3 (.new [0x21, 0x43])).isSome = true ∧
    nthCall VirtualChannel.VcArbitrationTable.step 4 (.new [0x21, 0x43]) = none := by
  decide +kernel

/-- C97: call `k` on a new port arbitration table returns entry `k`, or `None`, for the four entry
sizes there are. -/
theorem port_table_calls (t : Bytes) (size : Nat)
    (hs : size = 1 ∨ size = 2 ∨ size = 4 ∨ size = 8) (k : Nat) :
    nthCall VirtualChannel.PortArbitrationTable.step k (.new t size) =
      ((packed size t).map .mk)[k]? :=
  nthCall_of_take PortArbitrationTable.step_next port_table_fused _ _
    (VirtualChannel.PortArbitrationTable_items t size hs) k

example : nthCall VirtualChannel.PortArbitrationTable.step 1 (.new [0x21, 0x43] 4) = some ⟨2⟩ ∧
    nthCall VirtualChannel.PortArbitrationTable.step 4 (.new [0x21, 0x43] 4) = none := by
  decide +kernel

/-- C97: the same for function arbitration tables. -/
theorem function_table_calls (t : Bytes) (size : Nat)
    (hs : size = 1 ∨ size = 2 ∨ size = 4 ∨ size = 8) (k : Nat) :
    nthCall MultifunctionVirtualChannel.FunctionArbitrationTable.step k (.new t size) =
      ((packed size t).map .mk)[k]? :=
  nthCall_of_take FunctionArbitrationTable.step_next function_table_fused _ _
    (MultifunctionVirtualChannel.FunctionArbitrationTable_items t size hs) k

example : nthCall MultifunctionVirtualChannel.FunctionArbitrationTable.step 3 (.new [0xe4] 2) =
      some ⟨3⟩ ∧
    nthCall MultifunctionVirtualChannel.FunctionArbitrationTable.step 4 (.new [0xe4] 2) = none := by
  decide +kernel

/-- C97: the iterator over the extended virtual channels of a decoded capability can be had, and
call `k` on it returns channel `k`, or `None`. -/
theorem evc_calls (d : Bytes) (vc : VirtualChannel.VirtualChannel)
    (h : VirtualChannel.VirtualChannel.ofBytes d = .ok vc) :
    ∃ it, vc.extended_virtual_channels (ε := Empty) = .ok it ∧
      ∀ k, nthCall VirtualChannel.ExtendedVirtualChannels.step k it =
        ((List.range (min ((fld (rd32 d 0) 0 3 : U8).toNat + 1) ((d.length - 12) / 12))).map
          fun i => .ok (.spec d (12 + 12 * i)))[k]? := by
  obtain ⟨it, hit, _⟩ := VirtualChannel.extended_virtual_channels_items d vc h 0
  refine ⟨it, hit, fun k => nthCall_of_take ExtendedVirtualChannels.step_next evc_fused _ _ ?_ k⟩
  intro j
  obtain ⟨it', hit', hj⟩ := VirtualChannel.extended_virtual_channels_items d vc h j
  rw [hit] at hit'
  cases hit'
  exact hj

example : ∃ vc, VirtualChannel.VirtualChannel.ofBytes (1 :: List.replicate 40 0) = .ok vc := ⟨_, rfl⟩

/-- C97: call `k` on the extended virtual channels of a decoded MFVC capability returns channel `k`,
or `None`. -/
theorem mfvc_calls (d : Bytes) (m : MultifunctionVirtualChannel.MultifunctionVirtualChannel)
    (h : MultifunctionVirtualChannel.MultifunctionVirtualChannel.ofBytes d = .ok m) (k : Nat) :
    nthCall MultifunctionVirtualChannel.ExtendedVirtualChannels.step k m.extended_virtual_channels =
      ((List.range (min ((fld (rd32 d 4) 0 3 : U8).toNat + 1) ((d.length - 16) / 12))).map fun i =>
        .spec (2 ^ (fld (rd32 d 4) 10 2 : U8).toNat) d (16 + 12 * i))[k]? :=
  nthCall_of_take MfvcExtendedVirtualChannels.step_next mfvc_fused _ _
    (MultifunctionVirtualChannel.ExtendedVirtualChannels_items d m h) k

example : ∃ m, MultifunctionVirtualChannel.MultifunctionVirtualChannel.ofBytes
      ([0, 0, 0, 0, 1] ++ List.replicate 60 0) = .ok m ∧
    (nthCall MultifunctionVirtualChannel.ExtendedVirtualChannels.step 1
      m.extended_virtual_channels).isSome = true ∧
    nthCall MultifunctionVirtualChannel.ExtendedVirtualChannels.step 2
      m.extended_virtual_channels = none := ⟨_, rfl, by decide +kernel, by decide +kernel⟩

theorem ea_items (real : Bool) (n : Nat) (s : EnhancedAllocation.EnhancedAllocationEntries)
    (h : s.count.toNat < n) :
    callsItems (EnhancedAllocation.EnhancedAllocationEntries.step real) n s =
      EnhancedAllocation.entriesOf real s.count.toNat s.data := by
  have hn : ∀ s : EnhancedAllocation.EnhancedAllocationEntries, s.next real = .ok (s.step real) :=
    fun s => by
      unfold EnhancedAllocation.EnhancedAllocationEntries.step
      rw [EnhancedAllocation.ea_next]
  have hc := EnhancedAllocation.ea_collect real n s h
  suffices ∀ (n : Nat) (s : EnhancedAllocation.EnhancedAllocationEntries), s.collect real n =
      .ok (callsItems (EnhancedAllocation.EnhancedAllocationEntries.step real) n s) by
    rw [this] at hc
    exact Res.ok.inj hc
  clear h hc s n
  intro n
  induction n with
  | zero => intro s; rfl
  | succ n ih =>
    intro s
    rw [EnhancedAllocation.EnhancedAllocationEntries.collect, hn, callsItems]
    cases hs : (s.step real).1 with
    | none =>
      rw [callsItems_none n _ (ea_fused real s hs)]
      simp [hs]
    | some e => simp [hs, ih]

/-- C97: call `k` on the entries of an Enhanced Allocation capability returns entry `k`, or `None`,
with and without the feature `caps_ea_real_entry_size`. -/
theorem ea_calls (real : Bool) (s : EnhancedAllocation.EnhancedAllocationEntries) (k : Nat) :
    nthCall (EnhancedAllocation.EnhancedAllocationEntries.step real) k s =
      (EnhancedAllocation.entriesOf real s.count.toNat s.data)[k]? := by
  rw [nthCall_eq_items (ea_fused real) s k (s.count.toNat + k + 1) (by omega),
    ea_items real _ s (by omega)]

example : (nthCall (EnhancedAllocation.EnhancedAllocationEntries.step false) 1
      ⟨2 :: List.replicate 30 0, 5⟩).isSome = true := by decide +kernel

/-- C97: call `k` on the base addresses of any registers returns the base address number `k`, or
`None`. -/
theorem bar_calls (data : List U32) (k : Nat) :
    nthCall Header.BaseAddresses.next k (.new data) = (Header.barsOf data)[k]? := by
  rw [nthCall_eq_items bar_fused _ k (data.length + k + 1) (by omega), Header.callsItems_collect]
  show ((Header.BaseAddresses.collect (data.length + 1) (.new data)).take _)[k]? = _
  rw [Header.bar_iteration data _ (by omega), List.getElem?_take_of_lt (by omega)]

example : nthCall Header.BaseAddresses.next 1 (.new Header.sampleBars) =
      some ⟨3, .IoSpace 0xe000⟩ ∧
    nthCall Header.BaseAddresses.next 4 (.new Header.sampleBars) = none := by decide +kernel

end Pcics
