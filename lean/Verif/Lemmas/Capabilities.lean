import Verif.Spec.Capabilities
import Verif.Props.Cap.Small
import Verif.Props.Cap.PowerManagementInterface
import Verif.Props.Cap.AcceleratedGraphicsPort
import Verif.Props.Cap.MessageSignaledInterrups
import Verif.Props.Cap.PciX
import Verif.Props.Cap.Hypertransport
import Verif.Props.Cap.VendorSpecific
import Verif.Props.Cap.PciExpress
import Verif.Props.Cap.MsiX
import Verif.Props.Cap.EnhancedAllocation
import Verif.Props.Cap.FlatteningPortalBridge
import Mathlib.Data.List.Nodup
import Mathlib.Data.List.Perm.Subperm
/- Helper lemmas about the capability walk. -/

namespace Pcics
open Spec

theorem map'_ite_err {ε ε' α β : Type} (c : Prop) [Decidable c] (x : α) (e : ε) (f : α → β)
    (g : ε → ε') :
    ((if c then Res.ok x else .err e).map' f).mapErr g = if c then .ok (f x) else .err (g e) := by
  by_cases c <;> simp_all [Res.map', Res.mapErr]

theorem msi_kind (p : U8) (d : Bytes) :
    ((MessageSignaledInterrups.MessageSignaledInterrups.ofBytes d).map'
      .MessageSignaledInterrups).mapErr (.MessageSignaledInterrups p) = msiKind p d := by
  rw [MessageSignaledInterrups.MessageSignaledInterrups_bytes]
  unfold msiKind
  dsimp only
  by_cases h2 : 2 ≤ d.length
  · rw [if_pos h2, if_neg (by omega : ¬ d.length < 2)]
    by_cases hs : MessageSignaledInterrups.MessageSignaledInterrups.specSize
        (flag (rd16 d 0) 7) (flag (rd16 d 0) 8) ≤ d.length
    · rw [if_pos hs, if_neg (by omega)]; rfl
    · rw [if_neg hs, if_pos (by omega)]; rfl
  · rw [if_neg h2, if_pos (by omega)]; rfl

theorem pcix_kind (b : Bool) (p : U8) (d : Bytes) :
    (if b then
      ((PciX.PciXBridge.ofBytes d).map' .PciXBridge).mapErr (.PciXBridge p)
    else ((PciX.PciX.ofBytes d).map' .PciX).mapErr (.PciX p)) = pciXKind b p d := by
  rw [PciX.PciX_bytes, PciX.PciXBridge_bytes]
  unfold pciXKind
  cases b
  · simp only [Bool.false_eq_true, if_false]
    repeat' split
    all_goals first | rfl | simp_all [Res.map', Res.mapErr]
  · simp only [if_true]
    repeat' split
    all_goals first | rfl | simp_all [Res.map', Res.mapErr]

theorem ht_kind (p : U8) (d : Bytes) :
    ((Hypertransport.Hypertransport.ofBytes d).map' .Hypertransport).mapErr (.Hypertransport p) =
      hypertransportKind p d := by
  rw [Hypertransport.Hypertransport_bytes]
  unfold hypertransportKind
  split
  · rw [if_neg (by omega)]
    cases Hypertransport.blockSpec d (fld (rd16 d 0) 11 5) <;> rfl
  · rw [if_pos (by omega)]; rfl

theorem vendor_kind (v dev : U16) (p : U8) (d : Bytes) :
    ((VendorSpecific.VendorSpecific.tryNew d v dev).map' .VendorSpecific).mapErr
      (.VendorSpecific p) = vendorSpecificKind v dev p d := by
  unfold vendorSpecificKind
  by_cases h : d = []
  · subst h; rfl
  · rw [VendorSpecific.VendorSpecific_bytes d v dev h, if_neg h]
    dsimp only
    repeat' split
    all_goals first | rfl | (exfalso; omega)

theorem pcie_kind (p : U8) (d : Bytes) :
    ((PciExpress.PciExpress.ofBytes d).map' .PciExpress).mapErr (.PciExpress p) =
      pciExpressKind p d := by
  rw [PciExpress.PciExpress_bytes]
  unfold pciExpressKind
  repeat' split
  all_goals rfl

theorem ea_kind (b : Bool) (p : U8) (d : Bytes) :
    ((EnhancedAllocation.EnhancedAllocation.tryNew d b).map' .EnhancedAllocation).mapErr
      (.EnhancedAllocation p) = enhancedAllocationKind b p d := by
  unfold enhancedAllocationKind
  cases b
  · rw [EnhancedAllocation.ea_function, map'_ite_err]
    by_cases h : 2 ≤ d.length
    · rw [if_pos h, if_neg (by simp; omega)]; rfl
    · rw [if_neg h, if_pos (by simp; omega)]
  · rw [EnhancedAllocation.ea_bridge, map'_ite_err]
    by_cases h : 6 ≤ d.length
    · rw [if_pos h, if_neg (by simp; omega)]; rfl
    · rw [if_neg h, if_pos (by simp; omega)]

theorem isBridge_eq (h : Header.Header) : h.isBridge = typeOne h := by
  unfold Header.Header.isBridge typeOne
  cases h.header_type <;> rfl

theorem decodeKind_eq (h : Header.Header) (p id : U8) (d : Bytes) :
    decodeKind h p id d = kindSpec h p id d := by
  unfold decodeKind
  rw [PowerManagementInterface.PowerManagementInterface_bytes,
    AcceleratedGraphicsPort.AcceleratedGraphicsPort_bytes, VitalProductData_bytes,
    SlotIdentification_bytes, msi_kind, pcix_kind, ht_kind, vendor_kind, DebugPort_bytes,
    BridgeSubsystemVendorId_bytes, pcie_kind, MsiX.MsiX_bytes, Sata_bytes, AdvancedFeatures_bytes,
    ea_kind, FlatteningPortalBridge.FlatteningPortalBridge_registers, isBridge_eq]
  simp only [map'_ite_err]
  unfold kindSpec plainKind
  have hb : id = BitVec.ofNat 8 id.toNat := by simp
  have hl := id.isLt
  generalize id.toNat = n at hb hl
  subst hb
  interval_cases n <;> rfl

theorem ite_ne {α : Type} {c : Prop} [Decidable c] {x y v : α} (hx : x ≠ v) (hy : y ≠ v) :
    (if c then x else y) ≠ v := by split <;> assumption

theorem pick_ne {n : Nat} {α : Type} {c : BitVec n} {l : List (BitVec n × α)} {other v : α}
    (hl : ∀ e ∈ l, e.2 ≠ v) (ho : other ≠ v) : pick c l other ≠ v := by
  induction l with
  | nil => exact ho
  | cons e t ih =>
    exact ite_ne (hl e (by simp)) (ih fun x hx => hl x (by simp [hx]))

theorem pick_ind {n : Nat} {α : Type} {P : BitVec n → α → Prop} {c : BitVec n}
    {l : List (BitVec n × α)} {other : α} (hl : ∀ e ∈ l, P e.1 e.2)
    (ho : (∀ e ∈ l, e.1 ≠ c) → P c other) : P c (pick c l other) := by
  induction l with
  | nil => exact ho (by simp)
  | cons e t ih =>
    unfold pick
    split
    · rename_i h; rw [h]; exact hl e (by simp)
    · rename_i h
      refine ih (fun x hx => hl x (by simp [hx])) fun ht => ho ?_
      simp only [List.forall_mem_cons]
      exact ⟨fun he => h he.symm, ht⟩

theorem kindSpec_ne_panic (h : Header.Header) (p id : U8) (d : Bytes) :
    kindSpec h p id d ≠ .panic := by
  have hht : hypertransportKind p d ≠ .panic := by
    have hv : (fld (rd16 d 0) 11 5 : U8).toNat < 32 := by
      simp only [fld, BitVec.toNat_setWidth, BitVec.extractLsb'_toNat]; omega
    have hb : (fld (rd16 d 0) 11 5 : U8) = BitVec.ofNat 8 (fld (rd16 d 0) 11 5 : U8).toNat := by simp
    have hblock : Hypertransport.blockSpec d (fld (rd16 d 0) 11 5) ≠ .panic := by
      unfold Hypertransport.blockSpec
      dsimp only
      repeat' split
      all_goals simp
    unfold hypertransportKind
    split
    · simp
    · split
      · simp
      · simp
      · contradiction
  have hmsi : msiKind p d ≠ .panic := by
    unfold msiKind; dsimp only; repeat' split
    all_goals simp
  have hx : pciXKind (typeOne h) p d ≠ .panic := by
    unfold pciXKind; dsimp only; repeat' split
    all_goals simp
  have hv : vendorSpecificKind h.vendor_id h.device_id p d ≠ .panic := by
    unfold vendorSpecificKind; dsimp only; repeat' split
    all_goals simp
  have he : pciExpressKind p d ≠ .panic := by
    unfold pciExpressKind; repeat' split
    all_goals simp
  have hea : enhancedAllocationKind (typeOne h) p d ≠ .panic := by
    unfold enhancedAllocationKind
    exact ite_ne (by simp) (by simp)
  have hp : ∀ name need k, plainKind p d name need k ≠ .panic := by
    intro name need k; unfold plainKind; split <;> simp
  unfold kindSpec
  refine pick_ne ?_ (by simp)
  intro e he'
  simp only [List.mem_cons, List.not_mem_nil, or_false] at he'
  rcases he' with h | h | h | h | h | h | h | h | h | h | h | h | h | h | h | h | h | h | h | h | h |
    h <;> subst h <;> first | assumption | exact hp _ _ _ | simp

theorem parseCap_fits (h : Header.Header) (d : Bytes) (p : U8) (hf : capFits d p) :
    parseCap d p h = (capItem h d p, capNext d p) := by
  obtain ⟨h1, h2⟩ := hf
  unfold parseCap
  rw [if_neg (by simp only [DDR_OFFSET]; omega)]
  have hg : getFrom d (p.toNat - DDR_OFFSET) =
      some (capId d p :: capNext d p :: capData d p) := by
    rw [show DDR_OFFSET = 64 from rfl]
    unfold getFrom capId capNext capData
    rw [if_pos (by omega), List.drop_eq_getElem_cons (by omega),
      List.drop_eq_getElem_cons (by omega)]
    have e1 : p.toNat - 64 + 1 = p.toNat + 1 - 64 := by omega
    have g1 : p.toNat - 64 < d.length := by omega
    have g2 : p.toNat + 1 - 64 < d.length := by omega
    simp only [e1, byteAt, List.getD_eq_getElem?_getD, List.getElem?_eq_getElem g1,
      List.getElem?_eq_getElem g2, Option.getD_some]
    rw [show p.toNat + 1 - 64 + 1 = p.toNat + 2 - 64 by omega]
  dsimp only
  rw [hg]
  simp only [decodeKind_eq, capItem, Prod.mk.injEq, and_true]
  cases kindSpec h p (capId d p) (capData d p) <;> rfl

theorem parseCap_dangling (h : Header.Header) (d : Bytes) (p : U8) (hp : 0x40 ≤ p.toNat)
    (hf : ¬ capFits d p) : parseCap d p h = (.err (.Header p), p) := by
  have hlen : d.length < p.toNat - 0x40 + 2 := by
    unfold capFits at hf; omega
  unfold parseCap
  rw [if_neg (by simp only [DDR_OFFSET]; omega)]
  dsimp only
  rw [show DDR_OFFSET = 64 from rfl]
  unfold getFrom
  by_cases hl : p.toNat - 64 ≤ d.length
  · rw [if_pos hl]
    have : (d.drop (p.toNat - 64)).length < 2 := by simp only [List.length_drop]; omega
    match hd : d.drop (p.toNat - 64), this with
    | [], _ => rfl
    | [_], _ => rfl
  · rw [if_neg hl]

theorem next_fits (s : Capabilities) (hf : capFits s.data s.pointer) :
    s.next = (some (capItem s.header s.data s.pointer),
      { s with pointer := capNext s.data s.pointer }) := by
  unfold Capabilities.next
  have : s.pointer ≠ 0 := by
    intro h0
    have := hf.1
    rw [h0] at this
    simp at this
  rw [if_pos this, parseCap_fits _ _ _ hf]

theorem next_header (s : Capabilities) (h0 : s.pointer ≠ 0) (h : s.pointer.toNat < 0x40) :
    s.next = (some (.err .Pointer), { s with pointer := 0 }) := by
  unfold Capabilities.next
  have : parseCap s.data s.pointer s.header = (.err .Pointer, 0) := if_pos h
  rw [if_pos h0, this]

theorem next_dangling (s : Capabilities) (hp : 0x40 ≤ s.pointer.toNat)
    (hf : ¬ capFits s.data s.pointer) :
    s.next = (some (.err (.Header s.pointer)), s) := by
  unfold Capabilities.next
  have : s.pointer ≠ 0 := by
    intro h0
    rw [h0] at hp
    simp at hp
  rw [if_pos this, parseCap_dangling _ _ _ hp hf]

theorem next_zero (s : Capabilities) (h : s.pointer = 0) : s.next = (none, s) := by
  unfold Capabilities.next
  rw [if_neg (by simp [h])]

theorem after_add (s : Capabilities) (j k : Nat) : s.after (j + k) = (s.after j).after k := by
  induction j generalizing s with
  | zero => simp [Capabilities.after]
  | succ j ih =>
    rw [Nat.succ_add]
    exact ih _

theorem after_chain {d : Bytes} {p q : U8} {ps : List U8} (hc : CapChain d p ps q)
    (s : Capabilities) (hd : s.data = d) (hp : s.pointer = p) :
    s.after ps.length = { s with pointer := q } := by
  induction hc generalizing s with
  | stop p => cases s; simp_all [Capabilities.after]
  | step fits rest ih =>
    subst hd; subst hp
    simp only [List.length_cons, Capabilities.after, next_fits s fits]
    exact ih _ rfl rfl

theorem chain_take {d : Bytes} {p q : U8} {ps : List U8} (hc : CapChain d p ps q) (k : Nat)
    (x : U8) (hk : ps[k]? = some x) : CapChain d p (ps.take k) x ∧ capFits d x ∧
      ∃ r, ps = ps.take k ++ x :: r ∧ CapChain d (capNext d x) r q := by
  induction hc generalizing k with
  | stop p => simp at hk
  | @step p q ps fits rest ih =>
    match k with
    | 0 =>
      simp at hk; subst hk
      exact ⟨.stop _, fits, ps, rfl, rest⟩
    | k + 1 =>
      simp only [List.getElem?_cons_succ] at hk
      obtain ⟨h1, h2, r, hr, h3⟩ := ih k hk
      refine ⟨.step fits h1, h2, r, ?_, h3⟩
      simp only [List.take_succ_cons, List.cons_append]
      rw [← hr]

theorem after_zero (s : Capabilities) (h : s.pointer = 0) (k : Nat) : s.after k = s := by
  induction k with
  | zero => rfl
  | succ k ih => simp only [Capabilities.after, next_zero s h]; exact ih

theorem after_dangling (s : Capabilities) (hp : 0x40 ≤ s.pointer.toNat)
    (hf : ¬ capFits s.data s.pointer) (k : Nat) : s.after k = s := by
  induction k with
  | zero => rfl
  | succ k ih => simp only [Capabilities.after, next_dangling s hp hf]; exact ih

theorem chain_append {d : Bytes} {p q r : U8} {ps qs : List U8} (h1 : CapChain d p ps q)
    (h2 : CapChain d q qs r) : CapChain d p (ps ++ qs) r := by
  induction h1 with
  | stop p => exact h2
  | step fits rest ih => exact .step fits (ih h2)

theorem chain_unique {d : Bytes} {p q q' : U8} {ps ps' : List U8} (h1 : CapChain d p ps q)
    (h2 : CapChain d p ps' q') (hq : ¬ capFits d q) (hq' : ¬ capFits d q') : ps = ps' ∧ q = q' := by
  induction h1 generalizing ps' with
  | stop p =>
    cases h2 with
    | stop => exact ⟨rfl, rfl⟩
    | step fits _ => exact absurd fits hq
  | step fits rest ih =>
    cases h2 with
    | stop => exact absurd fits hq'
    | step _ rest' =>
      obtain ⟨h, h'⟩ := ih rest' hq
      exact ⟨by rw [h], h'⟩

/-- For every `k` the chain has at least `k` capabilities or stops before. -/
theorem chain_dichotomy (d : Bytes) (p : U8) (k : Nat) :
    (∃ ps q, CapChain d p ps q ∧ ps.length = k) ∨
    (∃ ps q, CapChain d p ps q ∧ ps.length < k ∧ ¬ capFits d q) := by
  induction k generalizing p with
  | zero => exact .inl ⟨[], p, .stop p, rfl⟩
  | succ k ih =>
    by_cases hf : capFits d p
    · rcases ih (capNext d p) with ⟨ps, q, hc, hl⟩ | ⟨ps, q, hc, hl, hq⟩
      · exact .inl ⟨p :: ps, q, .step hf hc, by simp [hl]⟩
      · exact .inr ⟨p :: ps, q, .step hf hc, by simp only [List.length_cons]; omega, hq⟩
    · exact .inr ⟨[], p, .stop p, by simp, hf⟩

/-- A chain that stops visits no pointer twice. -/
theorem chain_nodup {d : Bytes} {p q : U8} {ps : List U8} (hc : CapChain d p ps q)
    (hq : ¬ capFits d q) : ps.Nodup := by
  induction hc with
  | stop p => exact List.nodup_nil
  | @step p q ps fits rest ih =>
    refine List.nodup_cons.2 ⟨?_, ih hq⟩
    intro hmem
    obtain ⟨k, hk, hkp⟩ := List.getElem_of_mem hmem
    have hk' : ps[k]? = some p := by rw [List.getElem?_eq_getElem hk, hkp]
    obtain ⟨_, hx, r, hr, hrest⟩ := chain_take rest k p hk'
    have := (chain_unique (.step hx hrest) (.step fits rest) hq hq).1
    have h1 := congrArg List.length this
    have h2 := congrArg List.length hr
    simp only [List.length_cons, List.length_append] at h1 h2
    omega

theorem chain_length {d : Bytes} {p q : U8} {ps : List U8} (hc : CapChain d p ps q)
    (hq : ¬ capFits d q) : ps.length ≤ 192 := by
  have hn := chain_nodup hc hq
  have hm : ∀ x ∈ ps, 0x40 ≤ x.toNat := by
    intro x hx
    obtain ⟨k, hk, hkp⟩ := List.getElem_of_mem hx
    exact (chain_take hc k x (by rw [List.getElem?_eq_getElem hk, hkp])).2.1.1
  have hn' : (ps.map fun x => x.toNat - 0x40).Nodup := by
    rw [List.nodup_map_iff_inj_on hn]
    intro x hx y hy hxy
    have := hm x hx
    have := hm y hy
    apply BitVec.eq_of_toNat_eq
    omega
  have hsub : (ps.map fun x => x.toNat - 0x40) ⊆ List.range 192 := by
    intro x hx
    obtain ⟨y, hy, rfl⟩ := List.mem_map.1 hx
    have := y.isLt
    have := hm y hy
    exact List.mem_range.2 (by omega)
  have := (List.subperm_of_subset hn' hsub).length_le
  simpa using this

end Pcics
