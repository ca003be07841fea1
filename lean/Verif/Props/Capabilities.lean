import Verif.Lemmas.Capabilities
import Verif.Props.Header
/- Properties of src/capabilities.rs -/

namespace Pcics
open Spec

/-! A sample: a type 0 header whose capability pointer is 0x80, and a region with an MSI capability
at 0x80, a power management capability at 0x70 and a truncated SATA capability at 0xa8. -/

def sampleHeader (ptr : U8) : Header.Header :=
  Header.Header.spec (List.replicate 0x34 0 ++ [ptr] ++ List.replicate 11 0)

def sampleRegion : Bytes :=
  List.replicate 0x30 0 ++ [0x01, 0xa8, 0x03, 0x40, 0x08, 0x00, 0x00, 0x00] ++
  List.replicate 8 0 ++ [0x05, 0x70, 0x01, 0x00, 0x58, 0x03, 0xe0, 0xfe, 0x00, 0x00, 0x00, 0x00] ++
  List.replicate 0x1c 0 ++ [0x12, 0x00, 0x10, 0x00]

/-- The sample header is what parsing gives. -/
example (ptr : U8) : Header.Header.ofBytes (List.replicate 0x34 0 ++ [ptr] ++ List.replicate 11 0) =
    .ok (sampleHeader ptr) := by
  rw [Header.header_accepts_iff]; rfl

example : CapChain sampleRegion 0x80 [0x80, 0x70, 0xa8] 0 :=
  .step (by decide) (.step (by decide) (.step (by decide) (.stop _)))

/-- C16: the `k`-th item is the capability at the `k`-th pointer of the chain: reported with that
pointer, id from the byte there, registers from two bytes further. -/
theorem cap_walk (d : Bytes) (h : Header.Header) (ps : List U8) (q : U8)
    (hc : CapChain d h.capabilities_pointer ps q) (k : Nat) (p : U8) (hk : ps[k]? = some p) :
    (Capabilities.new d h).item k = some (capItem h d p) := by
  obtain ⟨hpre, hf, _⟩ := chain_take hc k p hk
  have hl : (ps.take k).length = k := by
    have : k < ps.length := by
      rcases Nat.lt_or_ge k ps.length with h | h
      · exact h
      · rw [List.getElem?_eq_none h] at hk; cases hk
    simp only [List.length_take]; omega
  have := after_chain hpre (Capabilities.new d h) rfl rfl
  rw [hl] at this
  unfold Capabilities.item
  rw [this, next_fits _ hf]
  rfl

/-- C16: after the chain the walk is at the pointer the chain is left with. -/
theorem cap_walk_pointer (d : Bytes) (h : Header.Header) (ps : List U8) (q : U8)
    (hc : CapChain d h.capabilities_pointer ps q) :
    ((Capabilities.new d h).after ps.length).pointer = q := by
  rw [after_chain hc (Capabilities.new d h) rfl rfl]

/-- C16, C20: a successful item reports the pointer it was found at. -/
theorem cap_item_pointer (d : Bytes) (h : Header.Header) (p : U8) (c : Capability)
    (hi : capItem h d p = .ok c) : c.pointer = p := by
  unfold capItem at hi
  split at hi <;> simp only [Res.ok.injEq, reduceCtorEq] at hi
  rw [← hi]

/-- C04: the capability walk of a header with a reserved layout is empty, whatever the region. -/
theorem header_reserved_no_capabilities (d region : Bytes) (h : Header.Header)
    (hd : Header.Header.ofBytes d = .ok h) (hr : 2 < (Header.headerTypeCode d).toNat) (k : Nat) :
    (Capabilities.new region h).item k = none := by
  have hp := (Header.header_capabilities_pointer d h hd).2.2.2 hr
  have hn : (Capabilities.new region h).next = (none, Capabilities.new region h) := by
    simp [Capabilities.next, Capabilities.new, hp]
  have ha : (Capabilities.new region h).after k = Capabilities.new region h := by
    induction k with
    | zero => rfl
    | succ k ih => rw [Capabilities.after, hn]; exact ih
  rw [Capabilities.item, ha, hn]

example : ∃ h, Header.Header.ofBytes (Header.sampleNormal.set 14 0x05) = .ok h ∧
    2 < (Header.headerTypeCode (Header.sampleNormal.set 14 0x05)).toNat := by
  refine ⟨_, (Header.header_accepts_iff _).trans rfl, by decide⟩

/-- C17: a chain of `n` capabilities ended by a zero pointer gives exactly `n` items, then nothing
for ever. -/
theorem cap_walk_end (d : Bytes) (h : Header.Header) (ps : List U8)
    (hc : CapChain d h.capabilities_pointer ps 0) (k : Nat) :
    ((Capabilities.new d h).item k).isSome ↔ k < ps.length := by
  by_cases hk : k < ps.length
  · rw [cap_walk d h ps 0 hc k _ (List.getElem?_eq_getElem hk)]
    simp [hk]
  · obtain ⟨j, rfl⟩ := Nat.exists_eq_add_of_le (Nat.le_of_not_lt hk)
    unfold Capabilities.item
    rw [after_add, after_chain hc (Capabilities.new d h) rfl rfl, after_zero _ rfl, next_zero _ rfl]
    simp [hk]

example : (Capabilities.new sampleRegion (sampleHeader 0x80)).item 2 =
    some (.err (.Data 0xa8 ⟨"Serial ATA", 6⟩)) := by decide +kernel
example : (Capabilities.new sampleRegion (sampleHeader 0x80)).item 3 = none := by decide +kernel

/-- C19: a pointer into the header (nonzero, below 0x40), wherever the chain meets it, gives exactly
one `Pointer` error and ends the walk. -/
theorem cap_walk_header_pointer (d : Bytes) (h : Header.Header) (ps : List U8) (q : U8)
    (hc : CapChain d h.capabilities_pointer ps q) (h0 : q ≠ 0) (hq : q.toNat < 0x40) :
    (Capabilities.new d h).item ps.length = some (.err .Pointer) ∧
    ∀ k, ps.length < k → (Capabilities.new d h).item k = none := by
  have ha := after_chain hc (Capabilities.new d h) rfl rfl
  refine ⟨?_, ?_⟩
  · unfold Capabilities.item
    rw [ha]
    show (Capabilities.mk d h q).next.1 = _
    rw [next_header (Capabilities.mk d h q) h0 hq]
  · intro k hk
    obtain ⟨j, rfl⟩ := Nat.exists_eq_add_of_le (Nat.succ_le_of_lt hk)
    unfold Capabilities.item
    rw [Nat.succ_eq_add_one, after_add, after_add, ha]
    have hn : (Capabilities.mk d h q).next.2.pointer = 0 := by
      rw [next_header (Capabilities.mk d h q) h0 hq]
    simp only [Capabilities.after]
    show ((Capabilities.mk d h q).next.2.after j).next.1 = none
    rw [after_zero _ hn, next_zero _ hn]

/-- The hypotheses are met: the capability at 0x40 links to address 0x04. -/
example : CapChain [0x00, 0x04] 0x40 [0x40] 0x04 := .step (by decide) (.stop _)

/-- C18 (the code violates it): a pointer beyond the region is reported as a `Header` error for
ever, the walk never ends. -/
theorem cap_walk_dangling_repeats (d : Bytes) (h : Header.Header) (ps : List U8) (q : U8)
    (hc : CapChain d h.capabilities_pointer ps q) (h0 : 0x40 ≤ q.toNat) (hq : ¬ capFits d q)
    (k : Nat) (hk : ps.length ≤ k) :
    (Capabilities.new d h).item k = some (.err (.Header q)) := by
  obtain ⟨j, rfl⟩ := Nat.exists_eq_add_of_le hk
  unfold Capabilities.item
  rw [after_add, after_chain hc (Capabilities.new d h) rfl rfl, after_dangling _ h0 hq,
    next_dangling _ h0 hq]

/-- C18 (the code violates it): in particular when only the 64 header bytes are readable (the
region is empty) every function with a capability list makes the walk endless. -/
theorem cap_walk_header_only_dump (h : Header.Header) (hp : 0x40 ≤ h.capabilities_pointer.toNat) :
    ¬ (Capabilities.new [] h).Terminates := by
  rintro ⟨n, hn⟩
  have := cap_walk_dangling_repeats [] h [] _ (.stop _) hp (by simp [capFits]) n (by simp)
  rw [hn n (Nat.le_refl _)] at this
  cases this

/-- C18 (the code violates it): a capability linking to itself is reported for ever. -/
theorem cap_walk_cycle (k : Nat) : (Capabilities.new [0x00, 0x40] (sampleHeader 0x40)).item k =
    some (.ok ⟨0x40, .NullCapability⟩) := by
  have hs : (Capabilities.new [0x00, 0x40] (sampleHeader 0x40)).next =
    (some (.ok ⟨0x40, .NullCapability⟩), Capabilities.new [0x00, 0x40] (sampleHeader 0x40)) := by
    decide +kernel
  have : (Capabilities.new [0x00, 0x40] (sampleHeader 0x40)).after k =
      Capabilities.new [0x00, 0x40] (sampleHeader 0x40) := by
    induction k with
    | zero => rfl
    | succ k ih => simp only [Capabilities.after, hs]; exact ih
  unfold Capabilities.item
  rw [this, hs]

/-- C18 is false: not every walk terminates. -/
theorem cap_walk_not_always_terminating :
    ¬ ∀ (d : Bytes) (h : Header.Header), (Capabilities.new d h).Terminates := by
  intro hall
  obtain ⟨n, hn⟩ := hall [0x00, 0x40] (sampleHeader 0x40)
  have := hn n (Nat.le_refl _)
  rw [cap_walk_cycle] at this
  cases this

/-- C18, for the walks that do terminate: the walk terminates exactly when the chain reaches a
pointer below 0x40 (zero or into the header). -/
theorem cap_walk_terminates_iff_partial (d : Bytes) (h : Header.Header) :
    (Capabilities.new d h).Terminates ↔
      ∃ ps q, CapChain d h.capabilities_pointer ps q ∧ q.toNat < 0x40 := by
  constructor
  · rintro ⟨n, hn⟩
    rcases chain_dichotomy d h.capabilities_pointer n with ⟨ps, q, hc, hl⟩ | ⟨ps, q, hc, hl, hq⟩
    · refine ⟨ps, q, hc, ?_⟩
      have hnone := hn n (Nat.le_refl _)
      unfold Capabilities.item at hnone
      rw [← hl, after_chain hc (Capabilities.new d h) rfl rfl] at hnone
      by_contra hge
      have hge' : 0x40 ≤ q.toNat := by omega
      by_cases hf : capFits d q
      · rw [next_fits _ hf] at hnone; cases hnone
      · rw [next_dangling _ hge' hf] at hnone; cases hnone
    · refine ⟨ps, q, hc, ?_⟩
      by_contra hge
      have hge' : 0x40 ≤ q.toNat := by omega
      have := cap_walk_dangling_repeats d h ps q hc hge' hq n (by omega)
      rw [hn n (Nat.le_refl _)] at this
      cases this
  · rintro ⟨ps, q, hc, hq⟩
    by_cases h0 : q = 0
    · subst h0
      refine ⟨ps.length, fun k hk => ?_⟩
      have := (cap_walk_end d h ps hc k).not.2 (by omega)
      simpa using this
    · exact ⟨ps.length + 1, fun k hk => (cap_walk_header_pointer d h ps q hc h0 hq).2 k (by omega)⟩

/-- C18, for the walks that do terminate: no pointer is visited twice and at most 193 items are
yielded (192 capabilities, one pointer error). -/
theorem cap_walk_bound_partial (d : Bytes) (h : Header.Header)
    (ht : (Capabilities.new d h).Terminates) (k : Nat) (hk : 193 ≤ k) :
    (Capabilities.new d h).item k = none := by
  obtain ⟨ps, q, hc, hq⟩ := (cap_walk_terminates_iff_partial d h).1 ht
  have hnf : ¬ capFits d q := fun hf => by have := hf.1; omega
  have hl := chain_length hc hnf
  by_cases h0 : q = 0
  · subst h0
    have := (cap_walk_end d h ps hc k).not.2 (by omega)
    simpa using this
  · exact (cap_walk_header_pointer d h ps q hc h0 hq).2 k (by omega)

/-- C18: so termination can be seen after 194 calls. -/
theorem cap_walk_terminates_decidable (d : Bytes) (h : Header.Header) :
    (Capabilities.new d h).Terminates ↔ (Capabilities.new d h).item 193 = none := by
  refine ⟨fun ht => cap_walk_bound_partial d h ht 193 (Nat.le_refl _), fun hn => ⟨193, ?_⟩⟩
  intro k hk
  obtain ⟨j, rfl⟩ := Nat.exists_eq_add_of_le hk
  have hz : ((Capabilities.new d h).after 193).pointer = 0 := by
    by_contra hne
    unfold Capabilities.item Capabilities.next at hn
    generalize (Capabilities.new d h).after 193 = s at hn hne
    rw [if_pos hne] at hn
    cases hn
  unfold Capabilities.item
  rw [after_add, after_zero _ hz, next_zero _ hz]

example : (Capabilities.new sampleRegion (sampleHeader 0x80)).Terminates :=
  (cap_walk_terminates_iff_partial _ _).2
    ⟨[0x80, 0x70, 0xa8], 0, .step (by decide) (.step (by decide) (.step (by decide) (.stop _))),
      by decide⟩

/-- C20: an error for one capability does not stop or divert the walk: the following item is the
capability at the next pointer of the malformed one. -/
theorem cap_walk_after_error (d : Bytes) (h : Header.Header) (ps : List U8) (q : U8)
    (hc : CapChain d h.capabilities_pointer ps q) (k : Nat) (p : U8) (hk : ps[k]? = some p)
    (e : CapabilityError) (_he : (Capabilities.new d h).item k = some (.err e)) :
    ((Capabilities.new d h).after (k + 1)).pointer = capNext d p ∧
    (capFits d (capNext d p) →
      (Capabilities.new d h).item (k + 1) = some (capItem h d (capNext d p))) := by
  obtain ⟨hpre, hf, r, hr, hrest⟩ := chain_take hc k p hk
  have hc1 : CapChain d h.capabilities_pointer (ps.take k ++ [p]) (capNext d p) :=
    chain_append hpre (.step hf (.stop _))
  have hl : (ps.take k ++ [p]).length = k + 1 := by
    have : k < ps.length := by
      rcases Nat.lt_or_ge k ps.length with h | h
      · exact h
      · rw [List.getElem?_eq_none h] at hk; cases hk
    simp only [List.length_append, List.length_take, List.length_singleton]; omega
  have ha := after_chain hc1 (Capabilities.new d h) rfl rfl
  rw [hl] at ha
  refine ⟨by rw [ha], fun hfit => ?_⟩
  unfold Capabilities.item
  rw [ha, next_fits _ hfit]
  rfl

/-- A malformed capability (a SATA one with two bytes) in front of a well-formed one. -/
example : (Capabilities.new [0x00, 0x00, 0x12, 0x40] (sampleHeader 0x40)).item 0 =
    some (.ok ⟨0x40, .NullCapability⟩) := by decide +kernel
example : (Capabilities.new ([0x09, 0x44, 0x01, 0x00, 0x06, 0x00]) (sampleHeader 0x40)).item 0 =
    some (.err (.VendorSpecific 0x40 (.Length 1))) ∧
  (Capabilities.new ([0x09, 0x44, 0x01, 0x00, 0x06, 0x00]) (sampleHeader 0x40)).item 1 =
    some (.ok ⟨0x44, .CompactPciHotSwap⟩) := by decide +kernel

/-- C21: for every id byte, header and data the decoded kind (or error) is the assigned one. -/
theorem cap_dispatch (h : Header.Header) (ptr id : U8) (d : Bytes) :
    decodeKind h ptr id d = kindSpec h ptr id d := decodeKind_eq h ptr id d

/-- C21: a parsed header is that of a bridge exactly when bits 6:0 of byte 0x0e are 1. -/
theorem typeOne_iff (d : Bytes) (h : Header.Header) (hd : Header.Header.ofBytes d = .ok h) :
    typeOne h = true ↔ Header.headerTypeCode d = 1 := by
  rw [Header.header_accepts_iff] at hd
  split at hd
  · cases hd
    simp only [typeOne, Header.Header.spec, Header.HeaderType.spec]
    generalize Header.headerTypeCode d = c
    by_cases h0 : c = 0#8
    · subst h0; simp [pick]
    by_cases h1 : c = 1#8
    · subst h1; simp [pick]
    by_cases h2 : c = 2#8
    · subst h2; simp [pick]
    simp [pick, h0, h1, h2]
  · cases hd

/-- A header of type 1, with the multi-function bit set. -/
example : ∃ h, Header.Header.ofBytes (List.replicate 14 0 ++ [0x81] ++ List.replicate 49 0) = .ok h ∧
    typeOne h = true :=
  ⟨_, by rw [Header.header_accepts_iff, if_pos (by decide)], by decide +kernel⟩

/-- C21: the variant of a decoded capability belongs to the id byte it was decoded from; PCI-X has
the bridge layout exactly when the header is of type Bridge; unassigned ids (above 0x15), and no
others, are reported as `Reserved` with that id. -/
theorem cap_kind_of_id (h : Header.Header) (ptr id : U8) (d : Bytes) (k : CapabilityKind)
    (hk : decodeKind h ptr id d = .ok k) :
    k.code = id ∧ (∀ x, k = .PciX x → typeOne h = false) ∧
    (∀ x, k = .PciXBridge x → typeOne h = true) ∧
    ((∃ i, k = .Reserved i) ↔ 0x15 < id.toNat) := by
  rw [cap_dispatch] at hk
  have hplain : ∀ {name need k'}, plainKind ptr d name need k' = .ok k → k = k' := by
    intro name need k' hp
    unfold plainKind at hp
    split at hp
    · exact (Res.ok.inj hp).symm
    · cases hp
  have hx : ∀ {b}, pciXKind b ptr d = .ok k →
      (b = false ∧ ∃ x, k = .PciX x) ∨ (b = true ∧ ∃ x, k = .PciXBridge x) := by
    intro b hp
    unfold pciXKind at hp
    dsimp only at hp
    split at hp
    · rename_i hb
      refine .inr ⟨hb, ?_⟩
      repeat' split at hp
      all_goals first | (cases hp; done) | exact ⟨_, (Res.ok.inj hp).symm⟩
    · rename_i hb
      refine .inl ⟨by simpa using hb, ?_⟩
      repeat' split at hp
      all_goals first | (cases hp; done) | exact ⟨_, (Res.ok.inj hp).symm⟩
  have hm : msiKind ptr d = .ok k → ∃ x, k = .MessageSignaledInterrups x := by
    intro hp
    unfold msiKind at hp
    dsimp only at hp
    repeat' split at hp
    all_goals first | (cases hp; done) | exact ⟨_, (Res.ok.inj hp).symm⟩
  have hh : hypertransportKind ptr d = .ok k → ∃ x, k = .Hypertransport x := by
    intro hp
    unfold hypertransportKind at hp
    repeat' split at hp
    all_goals first | (cases hp; done) | exact ⟨_, (Res.ok.inj hp).symm⟩
  have hv : ∀ {v dev}, vendorSpecificKind v dev ptr d = .ok k → ∃ x, k = .VendorSpecific x := by
    intro v dev hp
    unfold vendorSpecificKind at hp
    dsimp only at hp
    repeat' split at hp
    all_goals first | (cases hp; done) | exact ⟨_, (Res.ok.inj hp).symm⟩
  have he : pciExpressKind ptr d = .ok k → ∃ x, k = .PciExpress x := by
    intro hp
    unfold pciExpressKind at hp
    repeat' split at hp
    all_goals first | (cases hp; done) | exact ⟨_, (Res.ok.inj hp).symm⟩
  have hea : ∀ {b}, enhancedAllocationKind b ptr d = .ok k → ∃ x, k = .EnhancedAllocation x := by
    intro b hp
    unfold enhancedAllocationKind at hp
    cases b <;> simp only [Bool.false_eq_true, if_true, if_false] at hp <;> split at hp
    all_goals first | (cases hp; done) | exact ⟨_, (Res.ok.inj hp).symm⟩
  revert hk
  unfold kindSpec
  refine pick_ind (P := fun i r => r = Res.ok k → k.code = i ∧
    (∀ x, k = .PciX x → typeOne h = false) ∧ (∀ x, k = .PciXBridge x → typeOne h = true) ∧
    ((∃ i, k = .Reserved i) ↔ 0x15 < i.toNat)) ?_ ?_
  · simp only [List.forall_mem_cons, List.not_mem_nil, false_imp_iff, implies_true, and_true]
    refine ⟨?_, ?_, ?_, ?_, ?_, ?_, ?_, ?_, ?_, ?_, ?_, ?_, ?_, ?_, ?_, ?_, ?_, ?_, ?_, ?_, ?_, ?_⟩ <;>
      intro hk
    · obtain rfl := Res.ok.inj hk; simp [CapabilityKind.code]
    · obtain rfl := hplain hk; simp [CapabilityKind.code]
    · obtain rfl := hplain hk; simp [CapabilityKind.code]
    · obtain rfl := hplain hk; simp [CapabilityKind.code]
    · obtain rfl := hplain hk; simp [CapabilityKind.code]
    · obtain ⟨x, rfl⟩ := hm hk; simp [CapabilityKind.code]
    · obtain rfl := Res.ok.inj hk; simp [CapabilityKind.code]
    · obtain ⟨hb, ⟨x, rfl⟩⟩ | ⟨hb, ⟨x, rfl⟩⟩ := hx hk <;> simp [CapabilityKind.code, hb]
    · obtain ⟨x, rfl⟩ := hh hk; simp [CapabilityKind.code]
    · obtain ⟨x, rfl⟩ := hv hk; simp [CapabilityKind.code]
    · obtain rfl := hplain hk; simp [CapabilityKind.code]
    · obtain rfl := Res.ok.inj hk; simp [CapabilityKind.code]
    · obtain rfl := Res.ok.inj hk; simp [CapabilityKind.code]
    · obtain rfl := hplain hk; simp [CapabilityKind.code]
    · obtain rfl := Res.ok.inj hk; simp [CapabilityKind.code]
    · obtain rfl := Res.ok.inj hk; simp [CapabilityKind.code]
    · obtain ⟨x, rfl⟩ := he hk; simp [CapabilityKind.code]
    · obtain rfl := hplain hk; simp [CapabilityKind.code]
    · obtain rfl := hplain hk; simp [CapabilityKind.code]
    · obtain rfl := hplain hk; simp [CapabilityKind.code]
    · obtain ⟨x, rfl⟩ := hea hk; simp [CapabilityKind.code]
    · obtain rfl := hplain hk; simp [CapabilityKind.code]
  · intro hne hk
    obtain rfl := Res.ok.inj hk
    refine ⟨rfl, by simp, by simp, ⟨fun _ => ?_, fun _ => ⟨_, rfl⟩⟩⟩
    by_contra hle
    have hb : id = BitVec.ofNat 8 id.toNat := by simp
    generalize id.toNat = n at hb hle
    subst hb
    simp only [List.forall_mem_cons] at hne
    have hn : n ≤ 0x15 := by omega
    interval_cases n <;> simp at hne

example : decodeKind (sampleHeader 0x40) 0x40 0x16 [] = .ok (.Reserved 0x16) := by decide +kernel

/-- C22: what is reported at pointer `p`, and where the walk goes next, depends only on the region
from `p` on. -/
theorem cap_local (d d' : Bytes) (h : Header.Header) (p : U8) (hp : 0x40 ≤ p.toNat)
    (hd : d.drop (p.toNat - 0x40) = d'.drop (p.toNat - 0x40)) :
    (Capabilities.mk d h p).next.1 = (Capabilities.mk d' h p).next.1 ∧
    (Capabilities.mk d h p).next.2.pointer = (Capabilities.mk d' h p).next.2.pointer := by
  have key : parseCap d p h = parseCap d' p h := by
    by_cases hf : capFits d p
    · have hf' : capFits d' p := by
        refine ⟨hp, ?_⟩
        have := congrArg List.length hd
        simp only [List.length_drop] at this
        have := hf.2
        omega
      rw [parseCap_fits _ _ _ hf, parseCap_fits _ _ _ hf']
      have hget : ∀ i, byteAt d (p.toNat - 0x40 + i) = byteAt d' (p.toNat - 0x40 + i) := by
        intro i
        rw [← byteAt_drop, ← byteAt_drop, hd]
      have e1 : capId d p = capId d' p := hget 0
      have e2 : capNext d p = capNext d' p := by
        unfold capNext
        rw [show p.toNat + 1 - 0x40 = p.toNat - 0x40 + 1 by omega]
        exact hget 1
      have e3 : capData d p = capData d' p := by
        unfold capData
        rw [show p.toNat + 2 - 0x40 = p.toNat - 0x40 + 2 by omega, ← List.drop_drop,
          ← List.drop_drop, hd]
      simp only [capItem, e1, e2, e3]
    · have hf' : ¬ capFits d' p := by
        intro hf'
        apply hf
        refine ⟨hp, ?_⟩
        have := congrArg List.length hd
        simp only [List.length_drop] at this
        have := hf'.2
        omega
      rw [parseCap_dangling _ _ _ hp hf, parseCap_dangling _ _ _ hp hf']
  unfold Capabilities.next
  split <;> simp only [key, and_self]

example : ([0xff, 0xff, 0x06, 0x00] : Bytes).drop (0x42 - 0x40) =
    ([0x00, 0x42, 0x06, 0x00] : Bytes).drop (0x42 - 0x40) := by decide

/-- C23: no call of `next`, in any state, panics. -/
theorem cap_next_never_panics (s : Capabilities) : s.next.1 ≠ some .panic := by
  by_cases h0 : s.pointer = 0
  · rw [next_zero _ h0]; simp
  · by_cases hp : s.pointer.toNat < 0x40
    · rw [next_header _ h0 hp]; simp
    · by_cases hf : capFits s.data s.pointer
      · rw [next_fits _ hf]
        have := kindSpec_ne_panic s.header s.pointer (capId s.data s.pointer)
          (capData s.data s.pointer)
        unfold capItem
        split <;> simp_all
      · rw [next_dangling _ (by omega) hf]; simp

/-- C23: no dump makes header parsing or any step of the capability walk panic. -/
theorem cap_never_panics (dump region : Bytes) :
    Header.Header.ofBytes dump ≠ .panic ∧
    ∀ h, Header.Header.ofBytes dump = .ok h → ∀ k, (Capabilities.new region h).item k ≠ some .panic := by
  refine ⟨?_, fun h _ k => cap_next_never_panics _⟩
  rw [Header.header_accepts_iff]
  split <;> simp

end Pcics
