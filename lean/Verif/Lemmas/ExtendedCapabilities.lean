import Verif.Spec.ExtendedCapabilities
import Verif.Lemmas.Capabilities
import Verif.Lemmas.Bv
import Verif.Lemmas.Tactics
import Verif.Props.Ext.AccessControlServices
import Verif.Props.Ext.AddressTranslationServices
import Verif.Props.Ext.AdvancedErrorReporting
import Verif.Props.Ext.AlternativeRoutingIdInterpolation
import Verif.Props.Ext.ConfigurationAccessCorrelation
import Verif.Props.Ext.DesignatedVendorSpecificExtendedCapability
import Verif.Props.Ext.DeviceSerialNumber
import Verif.Props.Ext.DownstreamPortContainment
import Verif.Props.Ext.DynamicPowerAllocation
import Verif.Props.Ext.FrsQueuing
import Verif.Props.Ext.L1PmSubstates
import Verif.Props.Ext.LatencyToleranceReporting
import Verif.Props.Ext.LnRequester
import Verif.Props.Ext.Multicast
import Verif.Props.Ext.MultifunctionVirtualChannel
import Verif.Props.Ext.PageRequestInterface
import Verif.Props.Ext.PciExpressOverMphy
import Verif.Props.Ext.PowerBudgeting
import Verif.Props.Ext.PrecisionTimeMeasurement
import Verif.Props.Ext.ProcessAddressSpaceId
import Verif.Props.Ext.ProtocolMultiplexing
import Verif.Props.Ext.ReadinessTimeReporting
import Verif.Props.Ext.ResizableBar
import Verif.Props.Ext.RootComplexEventCollectorEndpointAssociation
import Verif.Props.Ext.RootComplexInternalLinkControl
import Verif.Props.Ext.RootComplexLinkDeclaration
import Verif.Props.Ext.RootComplexRegisterBlockHeader
import Verif.Props.Ext.SecondaryPciExpress
import Verif.Props.Ext.SingleRootIoVirtualization
import Verif.Props.Ext.TphRequester
import Verif.Props.Ext.VendorSpecificExtendedCapability
import Verif.Props.Ext.VirtualChannel
/- Helper lemmas about the extended capability walk. -/

namespace Pcics.ExtendedCapabilities
open Spec

theorem ok_ne_panic {ε α : Type} (x : α) : (Res.ok x : Res ε α) ≠ .panic := nofun
theorem err_ne_panic {ε α : Type} (e : ε) : (Res.err e : Res ε α) ≠ .panic := nofun
theorem ok_ne_err {ε α : Type} (x : α) (e : ε) : Res.ok x ≠ .err e := nofun
theorem panic_ne_err {ε α : Type} (e : ε) : (Res.panic : Res ε α) ≠ .err e := nofun

macro "res_ne" : tactic => `(tactic| first
  | exact ok_ne_panic _ | exact err_ne_panic _ | exact ok_ne_err _ _ | exact panic_ne_err _)

theorem wrap_eq {ε α : Type} (k : α → ExtendedCapabilityKind) (e : ε → ExtendedCapabilityError)
    (r : Res ε α) : (r.map' k).mapErr e = wrap k e r := by cases r <;> rfl

theorem plain_eq {α : Type} (o : U16) (d : Bytes) (name : String) (need size : Nat) (x : α)
    (k : α → ExtendedCapabilityKind) :
    wrap k (.Data o) (if need ≤ d.length then .ok x else .err ⟨name, size⟩) =
      plain o d name need size (k x) := by
  unfold plain; split <;> rfl

theorem pick_other {n : Nat} {α : Type} (c : BitVec n) (l : List (BitVec n × α)) (other : α)
    (h : c ∉ l.map Prod.fst) : pick c l other = other := by
  induction l with
  | nil => rfl
  | cons e t ih =>
    simp only [List.map_cons, List.mem_cons, not_or] at h
    unfold pick
    rw [if_neg h.1]
    exact ih h.2

theorem not_assigned (m : Nat) (h : m + 0x2d < 2 ^ 16) :
    BitVec.ofNat 16 (m + 0x2d) ∉ (List.range 0x2d).map (BitVec.ofNat 16) := by
  intro hm
  obtain ⟨i, hi, he⟩ := List.mem_map.1 hm
  have := List.mem_range.1 hi
  have := congrArg BitVec.toNat he
  simp only [BitVec.toNat_ofNat] at this
  omega

theorem kindSpec_other (o : U16) (s d : Bytes) (m : Nat) (h : m + 0x2d < 2 ^ 16) :
    kindSpec o (BitVec.ofNat 16 (m + 0x2d)) s d = .ok (.Reserved (BitVec.ofNat 16 (m + 0x2d))) :=
  pick_other _ _ _ (not_assigned m h)

theorem decodeKind_eq (o id : U16) (s d : Bytes) : decodeKind o id d s = kindSpec o id s d := by
  unfold decodeKind
  simp only [wrap_eq]
  rw [AdvancedErrorReporting.AdvancedErrorReporting_bytes,
    VirtualChannel.VirtualChannel_bytes,
    DeviceSerialNumber.DeviceSerialNumber_bytes,
    PowerBudgeting.PowerBudgeting_bytes,
    RootComplexLinkDeclaration.RootComplexLinkDeclaration_bytes,
    RootComplexInternalLinkControl.RootComplexInternalLinkControl_bytes,
    RootComplexEventCollectorEndpointAssociation.RootComplexEventCollectorEndpointAssociation_bytes,
    MultifunctionVirtualChannel.MultifunctionVirtualChannel_bytes,
    RootComplexRegisterBlockHeader.RootComplexRegisterBlockHeader_bytes,
    VendorSpecificExtendedCapability.VendorSpecificExtendedCapability_bytes,
    ConfigurationAccessCorrelation.ConfigurationAccessCorrelation_bytes,
    AccessControlServices.AccessControlServices_bytes,
    AlternativeRoutingIdInterpolation.AlternativeRoutingIdInterpretation_bytes,
    AddressTranslationServices.AddressTranslationServices_bytes,
    SingleRootIoVirtualization.SingleRootIoVirtualization_bytes,
    Multicast.Multicast_bytes,
    PageRequestInterface.PageRequestInterface_bytes,
    ResizableBar.ResizableBar_bytes,
    DynamicPowerAllocation.DynamicPowerAllocation_bytes,
    TphRequester.TphRequester_bytes,
    LatencyToleranceReporting.LatencyToleranceReporting_bytes,
    SecondaryPciExpress.SecondaryPciExpress_bytes,
    ProtocolMultiplexing.ProtocolMultiplexing_bytes,
    ProcessAddressSpaceId.ProcessAddressSpaceId_bytes,
    LnRequester.LnRequester_bytes,
    DownstreamPortContainment.DownstreamPortContainment_bytes,
    L1PmSubstates.L1PmSubstates_bytes,
    PrecisionTimeMeasurement.PrecisionTimeMeasurement_bytes,
    PciExpressOverMphy.PciExpressOverMphy_bytes,
    FrsQueuing.FrsQueuing_bytes,
    ReadinessTimeReporting.ReadinessTimeReporting_bytes,
    DesignatedVendorSpecificExtendedCapability.Dvsec_bytes]
  simp only [plain_eq]

  have hb : id = BitVec.ofNat 16 id.toNat := by simp
  have hl := id.isLt
  generalize id.toNat = n at hb hl
  subst hb
  by_cases hn : n < 0x2d
  · interval_cases n <;> rfl
  · obtain ⟨m, rfl⟩ : ∃ m, n = m + 0x2d := ⟨n - 0x2d, by omega⟩
    exact (kindSpec_other o s d m (by omega)).symm

theorem wrap_ok {ε α : Type} {k : α → ExtendedCapabilityKind} {e : ε → ExtendedCapabilityError}
    {r : Res ε α} {x : ExtendedCapabilityKind} (h : wrap k e r = .ok x) : ∃ y, x = k y := by
  cases r with
  | ok y => exact ⟨y, (Res.ok.inj h).symm⟩
  | err _ => cases h
  | panic => cases h

theorem plain_ok {o : U16} {d : Bytes} {name : String} {need size : Nat}
    {k x : ExtendedCapabilityKind} (h : plain o d name need size k = .ok x) : x = k := by
  unfold plain at h
  split at h
  · exact (Res.ok.inj h).symm
  · cases h

/-- The variant found for an id belongs to this id. -/
theorem kindSpec_id (o id : U16) (s d : Bytes) (k : ExtendedCapabilityKind) (v : U8)
    (h : kindSpec o id s d = .ok k) : ExtendedCapability.id ⟨k, v, o⟩ = id := by
  have hb : id = BitVec.ofNat 16 id.toNat := by simp
  have hl := id.isLt
  generalize id.toNat = n at hb hl
  subst hb
  by_cases hn : n < 0x2d
  · interval_cases n
    all_goals first
      | (obtain rfl := Res.ok.inj h; rfl)
      | (obtain rfl := plain_ok h; rfl)
      | (obtain ⟨x, rfl⟩ := wrap_ok h; rfl)
  · obtain ⟨m, rfl⟩ : ∃ m, n = m + 0x2d := ⟨n - 0x2d, by omega⟩
    rw [kindSpec_other o s d m (by omega)] at h
    obtain rfl := Res.ok.inj h
    rfl

/-- Unassigned ids, and no others, are reserved. -/
theorem kindSpec_reserved (o id : U16) (s d : Bytes) (k : ExtendedCapabilityKind)
    (h : kindSpec o id s d = .ok k) : (∃ i, k = .Reserved i) ↔ 0x2c < id.toNat := by
  have hb : id = BitVec.ofNat 16 id.toNat := by simp
  have hl := id.isLt
  generalize hi : id.toNat = n at hb hl
  subst hb
  by_cases hn : n < 0x2d
  · interval_cases n
    all_goals first
      | (obtain rfl := Res.ok.inj h; simp)
      | (obtain rfl := plain_ok h; simp)
      | (obtain ⟨x, rfl⟩ := wrap_ok h; simp)
  · obtain ⟨m, rfl⟩ : ∃ m, n = m + 0x2d := ⟨n - 0x2d, by omega⟩
    rw [kindSpec_other o s d m (by omega)] at h
    obtain rfl := Res.ok.inj h
    exact ⟨fun _ => by omega, fun _ => ⟨_, rfl⟩⟩

theorem kindSpec_structure (o id : U16) (s s' d : Bytes) (h : id ∉ fromStart) :
    kindSpec o id s d = kindSpec o id s' d := by
  have hb : id = BitVec.ofNat 16 id.toNat := by simp
  have hl := id.isLt
  generalize id.toNat = n at hb hl
  subst hb
  by_cases hn : n < 0x2d
  · interval_cases n
    all_goals first | rfl | exact absurd (by decide) h
  · obtain ⟨m, rfl⟩ : ∃ m, n = m + 0x2d := ⟨n - 0x2d, by omega⟩
    rw [kindSpec_other o s d m (by omega), kindSpec_other o s' d m (by omega)]

theorem kindSpec_registers (o id : U16) (s d d' : Bytes) (h : id ∈ fromStart) :
    kindSpec o id s d = kindSpec o id s d' := by
  simp only [fromStart, List.mem_cons, List.not_mem_nil, or_false] at h
  rcases h with rfl | rfl | rfl | rfl | rfl | rfl | rfl | rfl | rfl | rfl | rfl | rfl | rfl <;> rfl

theorem wrap_ne_panic {ε α : Type} {k : α → ExtendedCapabilityKind}
    {e : ε → ExtendedCapabilityError} {r : Res ε α} (h : r ≠ .panic) : wrap k e r ≠ .panic := by
  cases r with
  | ok y => res_ne
  | err _ => res_ne
  | panic => exact absurd rfl h

theorem plain_ne_panic (o : U16) (d : Bytes) (name : String) (need size : Nat)
    (k : ExtendedCapabilityKind) : plain o d name need size k ≠ .panic := by
  unfold plain
  exact ite_ne (by res_ne) (by res_ne)

theorem kindSpec_ne_panic (o id : U16) (s d : Bytes) : kindSpec o id s d ≠ .panic := by
  have h1 : decodedAdvancedErrorReporting d ≠ .panic := by
    unfold decodedAdvancedErrorReporting
    repeat' split
    all_goals res_ne
  have h2 : decodedRootComplexLinkDeclaration d ≠ .panic := by
    unfold decodedRootComplexLinkDeclaration
    repeat' split
    all_goals res_ne
  have h3 : decodedMultifunctionVirtualChannel s ≠ .panic := by
    unfold decodedMultifunctionVirtualChannel MultifunctionVirtualChannel.vcTable
    dsimp only
    repeat' split
    all_goals res_ne
  have h4 : decodedResizableBar s ≠ .panic := by
    unfold decodedResizableBar
    repeat' split
    all_goals res_ne
  have h5 : decodedDynamicPowerAllocation s ≠ .panic := by
    unfold decodedDynamicPowerAllocation
    repeat' split
    all_goals res_ne
  have h6 : decodedProtocolMultiplexing s ≠ .panic := by
    unfold decodedProtocolMultiplexing
    repeat' split
    all_goals res_ne
  have h7 : decodedDownstreamPortContainment d ≠ .panic := by
    unfold decodedDownstreamPortContainment
    repeat' split
    all_goals res_ne
  have h8 : decodedDesignatedVendorSpecificExtendedCapability s ≠ .panic := by
    have hc : ∀ (x : Bytes) (i : U16), ComputeExpressLink.ComputeExpressLink.spec x i ≠ .panic := by
      intro x i
      unfold ComputeExpressLink.ComputeExpressLink.spec
      refine pick_ne ?_ (ok_ne_panic _)
      simp only [List.forall_mem_cons]
      refine ⟨?_, by simp⟩
      split <;> res_ne
    have ht : DesignatedVendorSpecificExtendedCapability.DvsecType.spec s ≠ .panic := by
      unfold DesignatedVendorSpecificExtendedCapability.DvsecType.spec
      repeat' split
      all_goals first | res_ne | exact absurd (by assumption) (hc _ _)
    unfold decodedDesignatedVendorSpecificExtendedCapability
    repeat' split
    all_goals first | res_ne | exact absurd (by assumption) ht
  have hb : id = BitVec.ofNat 16 id.toNat := by simp
  have hl := id.isLt
  generalize id.toNat = n at hb hl
  subst hb
  by_cases hn : n < 0x2d
  · interval_cases n
    all_goals first
      | res_ne
      | exact plain_ne_panic _ _ _ _ _ _
      | exact wrap_ne_panic (by assumption)
  · obtain ⟨m, rfl⟩ : ∃ m, n = m + 0x2d := ⟨n - 0x2d, by omega⟩
    rw [kindSpec_other o s d m (by omega)]
    res_ne

theorem header_ofU32 (w : U32) : ExtendedCapabilityHeader.ofU32 w =
    { extended_capability_id := fld w 0 16, capability_version := fld w 16 4,
      next_capability_offset := fld w 20 12 } := by
  bits_simp [ExtendedCapabilityHeader.ofU32]

theorem getRange_header (d : Bytes) (o : U16) (h : fits d o) :
    getRange d (o.toNat - ECS_OFFSET) (o.toNat - ECS_OFFSET + ECH_BYTES) =
      some [byteAt d (o.toNat - 0x100), byteAt d (o.toNat - 0x100 + 1),
        byteAt d (o.toNat - 0x100 + 2), byteAt d (o.toNat - 0x100 + 3)] := by
  obtain ⟨h1, h2⟩ := h
  rw [show ECS_OFFSET = 0x100 from rfl, show ECH_BYTES = 4 from rfl]
  generalize o.toNat - 0x100 = i at h2
  unfold getRange
  rw [if_pos ⟨by omega, h2⟩]
  congr 1
  apply List.ext_getElem
  · simp; omega
  · intro k hk1 hk2
    simp only [List.length_cons, List.length_nil] at hk2
    simp only [List.getElem_drop, List.getElem_take]
    have : k = 0 ∨ k = 1 ∨ k = 2 ∨ k = 3 := by omega
    rcases this with rfl | rfl | rfl | rfl <;>
      simp [byteAt, List.getD_eq_getElem?_getD] <;> rw [List.getElem?_eq_getElem (by omega)] <;> rfl

theorem report_map (d : Bytes) (o : U16) (r : Res ExtendedCapabilityError ExtendedCapabilityKind) :
    (r.map' fun kind => ({ kind := kind, version := capVersion d o, offset := o } :
      ExtendedCapability)) = report d o r := by cases r <;> rfl

theorem parseEcap_live (d : Bytes) (o : U16) (h : live d o) :
    parseEcap d o = (itemAt d o, capNext d o) := by
  obtain ⟨hf, hne⟩ := h
  have hr := getRange_header d o hf
  obtain ⟨h1, h2⟩ := hf
  have hg : getFrom d (o.toNat - ECS_OFFSET + ECH_BYTES) = some ((structureAt d o).drop 4) := by
    rw [show ECS_OFFSET = 0x100 from rfl, show ECH_BYTES = 4 from rfl]
    unfold getFrom structureAt
    rw [if_pos h2, List.drop_drop]
  have hw : u32le (byteAt d (o.toNat - 0x100)) (byteAt d (o.toNat - 0x100 + 1))
      (byteAt d (o.toNat - 0x100 + 2)) (byteAt d (o.toNat - 0x100 + 3)) = header d o :=
    (MultifunctionVirtualChannel.rd32_u32le d _).symm
  unfold parseEcap
  rw [if_neg (by rw [show ECS_OFFSET = 0x100 from rfl]; omega)]
  dsimp only
  rw [hr]
  dsimp only
  rw [hw, if_neg hne, hg]
  dsimp only
  rw [header_ofU32, decodeKind_eq]
  exact Prod.ext (report_map d o _) rfl

theorem parseEcap_empty (d : Bytes) (o : U16) (hf : fits d o) (h0 : header d o = 0) :
    parseEcap d o = (.err (.EmptyHeader o), o) := by
  have hr := getRange_header d o hf
  have hw : u32le (byteAt d (o.toNat - 0x100)) (byteAt d (o.toNat - 0x100 + 1))
      (byteAt d (o.toNat - 0x100 + 2)) (byteAt d (o.toNat - 0x100 + 3)) = header d o :=
    (MultifunctionVirtualChannel.rd32_u32le d _).symm
  unfold parseEcap
  rw [if_neg (by have := hf.1; rw [show ECS_OFFSET = 0x100 from rfl]; omega)]
  dsimp only
  rw [hr]
  dsimp only
  rw [hw, if_pos h0]

theorem parseEcap_dangling (d : Bytes) (o : U16) (h : 0x100 ≤ o.toNat) (hf : ¬ fits d o) :
    parseEcap d o = (.err (.Header o), 0) := by
  have hlen : d.length < o.toNat - 0x100 + 4 := by unfold fits at hf; omega
  have hr : getRange d (o.toNat - ECS_OFFSET) (o.toNat - ECS_OFFSET + ECH_BYTES) = none := by
    rw [show ECS_OFFSET = 0x100 from rfl, show ECH_BYTES = 4 from rfl]
    unfold getRange
    rw [if_neg (by omega)]
  unfold parseEcap
  rw [if_neg (by rw [show ECS_OFFSET = 0x100 from rfl]; omega)]
  dsimp only
  rw [hr]

theorem itemAt_ne_empty (d : Bytes) (o x : U16) : itemAt d o ≠ .err (.EmptyHeader x) := by
  unfold itemAt
  generalize (structureAt d o).drop 4 = r
  generalize capId d o = id
  have hp : ∀ {name need size k}, plain o r name need size k ≠ .err (.EmptyHeader x) := by
    intros; unfold plain; exact ite_ne (by res_ne) (by simp)
  have hp' : ∀ {name need size k}, plain o d name need size k ≠ .err (.EmptyHeader x) := by
    intros; unfold plain; exact ite_ne (by res_ne) (by simp)
  have hw : ∀ {ε α : Type} {k : α → ExtendedCapabilityKind} {e : ε → ExtendedCapabilityError}
      {r : Res ε α}, (∀ y, e y ≠ .EmptyHeader x) → wrap k e r ≠ .err (.EmptyHeader x) := by
    intro ε α k e r he
    cases r with
    | ok y => res_ne
    | err y => exact fun h => he y (Res.err.inj h)
    | panic => res_ne
  have hk : kindSpec o id d r ≠ .err (.EmptyHeader x) := by
    have hb : id = BitVec.ofNat 16 id.toNat := by simp
    have hl := id.isLt
    generalize id.toNat = n at hb hl
    subst hb
    by_cases hn : n < 0x2d
    · interval_cases n
      all_goals first
        | res_ne
        | exact hp
        | exact hp'
        | exact hw (fun _ => nofun)
    · obtain ⟨m, rfl⟩ : ∃ m, n = m + 0x2d := ⟨n - 0x2d, by omega⟩
      rw [kindSpec_other o d r m (by omega)]
      res_ne
  revert hk
  cases kindSpec o id d r with
  | ok y => exact fun _ => by res_ne
  | err y => exact fun h hh => h (by rw [Res.err.inj hh])
  | panic => exact fun _ => by res_ne

theorem ne_zero_of_le {o : U16} (h : 0x100 ≤ o.toNat) : o ≠ 0 := by
  rintro rfl; simp at h

theorem next_zero (s : ExtendedCapabilities) (h : s.next_capability_offset = 0) :
    s.next = (none, s) := by
  unfold ExtendedCapabilities.next
  rw [if_pos h]

theorem next_live (s : ExtendedCapabilities) (h : live s.ecs s.next_capability_offset) :
    s.next = (some (itemAt s.ecs s.next_capability_offset),
      { s with next_capability_offset := capNext s.ecs s.next_capability_offset }) := by
  unfold ExtendedCapabilities.next
  rw [if_neg (ne_zero_of_le h.1.1), parseEcap_live _ _ h]
  split
  · rename_i x o heq
    exact absurd (congrArg Prod.fst heq) (itemAt_ne_empty _ _ _)
  · rename_i heq
    obtain ⟨rfl, rfl⟩ := Prod.mk.inj heq
    rfl

theorem next_empty (s : ExtendedCapabilities) (hf : fits s.ecs s.next_capability_offset)
    (h0 : header s.ecs s.next_capability_offset = 0) : s.next = (none, s) := by
  unfold ExtendedCapabilities.next
  rw [if_neg (ne_zero_of_le hf.1), parseEcap_empty _ _ hf h0]

theorem next_dangling (s : ExtendedCapabilities) (h : 0x100 ≤ s.next_capability_offset.toNat)
    (hf : ¬ fits s.ecs s.next_capability_offset) :
    s.next = (some (.err (.Header s.next_capability_offset)),
      { s with next_capability_offset := 0 }) := by
  unfold ExtendedCapabilities.next
  rw [if_neg (ne_zero_of_le h), parseEcap_dangling _ _ h hf]

theorem next_low (s : ExtendedCapabilities) (h0 : s.next_capability_offset ≠ 0)
    (h : s.next_capability_offset.toNat < 0x100) :
    s.next = (some (.err .Offset), { s with next_capability_offset := 0 }) := by
  unfold ExtendedCapabilities.next
  have : parseEcap s.ecs s.next_capability_offset = (.err .Offset, 0) := by
    unfold parseEcap
    rw [if_pos (show s.next_capability_offset.toNat < ECS_OFFSET from h)]
  rw [if_neg h0, this]

theorem after_add (s : ExtendedCapabilities) (j k : Nat) :
    s.after (j + k) = (s.after j).after k := by
  induction j generalizing s with
  | zero => simp [ExtendedCapabilities.after]
  | succ j ih =>
    rw [Nat.succ_add]
    exact ih _

theorem after_fixed (s : ExtendedCapabilities) (h : s.next.2 = s) (k : Nat) : s.after k = s := by
  induction k with
  | zero => rfl
  | succ k ih => simp only [ExtendedCapabilities.after, h]; exact ih

theorem after_chain {d : Bytes} {o q : U16} {os : List U16} (hc : Chain d o os q)
    (s : ExtendedCapabilities) (hd : s.ecs = d) (ho : s.next_capability_offset = o) :
    s.after os.length = { s with next_capability_offset := q } := by
  induction hc generalizing s with
  | stop o => cases s; simp_all [ExtendedCapabilities.after]
  | step here rest ih =>
    subst hd; subst ho
    simp only [List.length_cons, ExtendedCapabilities.after, next_live s here]
    exact ih _ rfl rfl

theorem chain_take {d : Bytes} {o q : U16} {os : List U16} (hc : Chain d o os q) (k : Nat)
    (x : U16) (hk : os[k]? = some x) : Chain d o (os.take k) x ∧ live d x ∧
      ∃ r, os = os.take k ++ x :: r ∧ Chain d (capNext d x) r q := by
  induction hc generalizing k with
  | stop o => simp at hk
  | @step o q os here rest ih =>
    match k with
    | 0 =>
      simp at hk; subst hk
      exact ⟨.stop _, here, os, rfl, rest⟩
    | k + 1 =>
      simp only [List.getElem?_cons_succ] at hk
      obtain ⟨h1, h2, r, hr, h3⟩ := ih k hk
      refine ⟨.step here h1, h2, r, ?_, h3⟩
      simp only [List.take_succ_cons, List.cons_append]
      rw [← hr]

theorem chain_unique {d : Bytes} {o q q' : U16} {os os' : List U16} (h1 : Chain d o os q)
    (h2 : Chain d o os' q') (hq : ¬ live d q) (hq' : ¬ live d q') : os = os' ∧ q = q' := by
  induction h1 generalizing os' with
  | stop o =>
    cases h2 with
    | stop => exact ⟨rfl, rfl⟩
    | step here _ => exact absurd here hq
  | step here rest ih =>
    cases h2 with
    | stop => exact absurd here hq'
    | step _ rest' =>
      obtain ⟨h, h'⟩ := ih rest' hq
      exact ⟨by rw [h], h'⟩

theorem chain_dichotomy (d : Bytes) (o : U16) (k : Nat) :
    (∃ os q, Chain d o os q ∧ os.length = k) ∨
    (∃ os q, Chain d o os q ∧ os.length < k ∧ ¬ live d q) := by
  induction k generalizing o with
  | zero => exact .inl ⟨[], o, .stop o, rfl⟩
  | succ k ih =>
    by_cases hf : live d o
    · rcases ih (capNext d o) with ⟨os, q, hc, hl⟩ | ⟨os, q, hc, hl, hq⟩
      · exact .inl ⟨o :: os, q, .step hf hc, by simp [hl]⟩
      · exact .inr ⟨o :: os, q, .step hf hc, by simp only [List.length_cons]; omega, hq⟩
    · exact .inr ⟨[], o, .stop o, by simp, hf⟩

/-- A chain that stops visits no offset twice. -/
theorem chain_nodup {d : Bytes} {o q : U16} {os : List U16} (hc : Chain d o os q)
    (hq : ¬ live d q) : os.Nodup := by
  induction hc with
  | stop o => exact List.nodup_nil
  | @step o q os here rest ih =>
    refine List.nodup_cons.2 ⟨?_, ih hq⟩
    intro hmem
    obtain ⟨k, hk, hko⟩ := List.getElem_of_mem hmem
    have hk' : os[k]? = some o := by rw [List.getElem?_eq_getElem hk, hko]
    obtain ⟨_, hx, r, hr, hrest⟩ := chain_take rest k o hk'
    have := (chain_unique (.step hx hrest) (.step here rest) hq hq).1
    have h1 := congrArg List.length this
    have h2 := congrArg List.length hr
    simp only [List.length_cons, List.length_append] at h1 h2
    omega

/-- Next offsets have 12 bits. -/
theorem capNext_lt (d : Bytes) (o : U16) : (capNext d o).toNat < 0x1000 := by
  unfold capNext
  simp only [fld, BitVec.toNat_setWidth, BitVec.extractLsb'_toNat]
  omega

theorem chain_lt {d : Bytes} {o q : U16} {os : List U16} (hc : Chain d o os q)
    (ho : o.toNat < 0x1000) : ∀ x ∈ os, x.toNat < 0x1000 := by
  induction hc with
  | stop o => simp
  | @step o q os here rest ih =>
    intro x hx
    rcases List.mem_cons.1 hx with rfl | hx
    · exact ho
    · exact ih (capNext_lt d o) x hx

theorem chain_length {d : Bytes} {o q : U16} {os : List U16} (hc : Chain d o os q)
    (ho : o.toNat < 0x1000) (hq : ¬ live d q) : os.length ≤ 3840 ∧ os.length ≤ d.length - 3 := by
  have hn := chain_nodup hc hq
  have hm : ∀ x ∈ os, 0x100 ≤ x.toNat ∧ x.toNat - 0x100 + 4 ≤ d.length := by
    intro x hx
    obtain ⟨k, hk, hkp⟩ := List.getElem_of_mem hx
    exact (chain_take hc k x (by rw [List.getElem?_eq_getElem hk, hkp])).2.1.1
  have hn' : (os.map fun x => x.toNat - 0x100).Nodup := by
    rw [List.nodup_map_iff_inj_on hn]
    intro x hx y hy hxy
    have := (hm x hx).1
    have := (hm y hy).1
    apply BitVec.eq_of_toNat_eq
    omega
  have hsub : (os.map fun x => x.toNat - 0x100) ⊆ List.range (min 3840 (d.length - 3)) := by
    intro x hx
    obtain ⟨y, hy, rfl⟩ := List.mem_map.1 hx
    have := chain_lt hc ho y hy
    have := hm y hy
    exact List.mem_range.2 (by omega)
  have := (List.subperm_of_subset hn' hsub).length_le
  simp only [List.length_map, List.length_range] at this
  omega

end Pcics.ExtendedCapabilities
