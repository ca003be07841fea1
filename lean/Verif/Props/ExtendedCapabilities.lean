import Verif.Lemmas.ExtendedCapabilities
/- Properties of src/extended_capabilities.rs -/

namespace Pcics.ExtendedCapabilities
open Spec

/-! A sample: a device serial number at 0x100, a truncated root complex event collector association
at 0x118, a null capability at 0x110. -/

def sampleRegion : Bytes :=
  [0x03, 0x00, 0x81, 0x11, 1, 2, 3, 4, 5, 6, 7, 8, 0, 0, 0, 0,
   0x00, 0x00, 0x02, 0x00, 0, 0, 0, 0, 0x07, 0x00, 0x01, 0x11]

example : Chain sampleRegion 0x100 [0x100, 0x118, 0x110] 0 :=
  .step (by decide) (.step (by decide) (.step (by decide) (.stop _)))

/-- C24: the `k`-th item is the extended capability at the `k`-th offset of the chain of next
offsets from 0x100. -/
theorem ecap_walk (d : Bytes) (os : List U16) (q : U16) (hc : Chain d 0x100 os q) (k : Nat)
    (o : U16) (hk : os[k]? = some o) :
    (ExtendedCapabilities.new d).item k = some (itemAt d o) := by
  obtain ⟨hpre, hl, _⟩ := chain_take hc k o hk
  have hlen : (os.take k).length = k := by
    have : k < os.length := by
      rcases Nat.lt_or_ge k os.length with h | h
      · exact h
      · rw [List.getElem?_eq_none h] at hk; cases hk
    simp only [List.length_take]; omega
  have := after_chain hpre (ExtendedCapabilities.new d) rfl rfl
  rw [hlen] at this
  unfold ExtendedCapabilities.item
  rw [this, next_live _ hl]
  rfl

/-- C24: after the chain the walk is at the offset the chain is left with. -/
theorem ecap_walk_offset (d : Bytes) (os : List U16) (q : U16) (hc : Chain d 0x100 os q) :
    ((ExtendedCapabilities.new d).after os.length).next_capability_offset = q := by
  rw [after_chain hc (ExtendedCapabilities.new d) rfl rfl]

/-- C24, C28: a successful item reports the offset it was found at, the version in bits 19:16 of the
header there, and its `id()` is bits 15:0 of that header. -/
theorem ecap_item_header (d : Bytes) (o : U16) (c : ExtendedCapability)
    (hi : itemAt d o = .ok c) :
    c.offset = o ∧ c.version = fld (rd32 d (o.toNat - 0x100)) 16 4 ∧
      c.id = fld (rd32 d (o.toNat - 0x100)) 0 16 := by
  unfold itemAt report at hi
  split at hi <;> simp only [Res.ok.injEq, reduceCtorEq] at hi
  rename_i k hk
  subst hi
  exact ⟨rfl, rfl, kindSpec_id o _ _ _ k _ hk⟩

example : (ExtendedCapabilities.new sampleRegion).item 0 =
    some (.ok ⟨.DeviceSerialNumber ⟨0x04030201, 0x08070605⟩, 1, 0x100⟩) := by decide +kernel
example : (ExtendedCapabilities.new sampleRegion).item 1 = some (.err
    (.Data 0x118 ⟨"Root Complex Event Collector Endpoint Association", 4⟩)) := by decide +kernel
example : (ExtendedCapabilities.new sampleRegion).item 2 = some (.ok ⟨.Null, 2, 0x110⟩) := by
  decide +kernel
example : (ExtendedCapabilities.new sampleRegion).item 3 = none := by decide +kernel

/-- C25: the walk ends at the end of a chain exactly when the next offset is 0 or the header there is
zero. -/
theorem ecap_walk_end_iff (d : Bytes) (os : List U16) (q : U16) (hc : Chain d 0x100 os q) :
    (ExtendedCapabilities.new d).item os.length = none ↔
      q = 0 ∨ (fits d q ∧ rd32 d (q.toNat - 0x100) = 0) := by
  have ha := after_chain hc (ExtendedCapabilities.new d) rfl rfl
  unfold ExtendedCapabilities.item
  rw [ha]
  change (ExtendedCapabilities.mk d q).next.1 = none ↔ _
  by_cases h0 : q = 0
  · rw [next_zero (ExtendedCapabilities.mk d q) h0]; simp [h0]
  · by_cases hf : fits d q
    · by_cases hz : header d q = 0
      · rw [next_empty (ExtendedCapabilities.mk d q) hf hz]
        exact ⟨fun _ => .inr ⟨hf, hz⟩, fun _ => rfl⟩
      · rw [next_live (ExtendedCapabilities.mk d q) ⟨hf, hz⟩]
        simp only [reduceCtorEq, false_iff]
        rintro (h | ⟨_, h⟩)
        · exact h0 h
        · exact hz h
    · have : (ExtendedCapabilities.mk d q).next.1 ≠ none := by
        by_cases hq : q.toNat < 0x100
        · rw [next_low (ExtendedCapabilities.mk d q) h0 hq]; simp
        · rw [next_dangling (ExtendedCapabilities.mk d q) (Nat.le_of_not_lt hq) hf]; simp
      exact ⟨fun h => absurd h this, fun h => absurd h (fun h => h.elim h0 fun h => hf h.1)⟩

/-- C25: once the iterator has returned `None` it does so for ever, in every state. -/
theorem ecap_stays_ended (s : ExtendedCapabilities) (h : s.next.1 = none) (k : Nat) :
    s.item k = none := by
  have hfix : s.next.2 = s := by
    by_cases h0 : s.next_capability_offset = 0
    · rw [next_zero s h0]
    · by_cases hq : s.next_capability_offset.toNat < 0x100
      · rw [next_low s h0 hq] at h; cases h
      · by_cases hf : fits s.ecs s.next_capability_offset
        · by_cases hz : header s.ecs s.next_capability_offset = 0
          · rw [next_empty s hf hz]
          · rw [next_live s ⟨hf, hz⟩] at h; cases h
        · rw [next_dangling s (by omega) hf] at h; cases h
  unfold ExtendedCapabilities.item
  rw [after_fixed s hfix, h]

/-- C25: a chain of `n` extended capabilities ended by a zero offset or a zero header gives exactly
`n` items, then nothing for ever. -/
theorem ecap_walk_end (d : Bytes) (os : List U16) (q : U16) (hc : Chain d 0x100 os q)
    (hq : q = 0 ∨ (fits d q ∧ rd32 d (q.toNat - 0x100) = 0)) (k : Nat) :
    ((ExtendedCapabilities.new d).item k).isSome ↔ k < os.length := by
  by_cases hk : k < os.length
  · rw [ecap_walk d os q hc k _ (List.getElem?_eq_getElem hk)]
    simp [hk]
  · obtain ⟨j, rfl⟩ := Nat.exists_eq_add_of_le (Nat.le_of_not_lt hk)
    have h0 := (ecap_walk_end_iff d os q hc).2 hq
    have := ecap_stays_ended ((ExtendedCapabilities.new d).after os.length) h0 j
    unfold ExtendedCapabilities.item at this ⊢
    rw [after_add, this]
    simp [hk]

/-- The space of a function without extended capabilities: zeros. -/
example (d : Bytes) (k : Nat) : (ExtendedCapabilities.new (0 :: 0 :: 0 :: 0 :: d)).item k = none := by
  have h := ecap_walk_end (0 :: 0 :: 0 :: 0 :: d) [] 0x100 (.stop _)
    (.inr ⟨⟨by decide, by simp⟩, rfl⟩) k
  generalize (ExtendedCapabilities.new (0 :: 0 :: 0 :: 0 :: d)).item k = x at h
  simpa using h

/-- C25: an offset into the first 256 bytes gives exactly one `Offset` error and ends the walk. -/
theorem ecap_walk_low (d : Bytes) (os : List U16) (q : U16) (hc : Chain d 0x100 os q) (h0 : q ≠ 0)
    (hq : q.toNat < 0x100) :
    (ExtendedCapabilities.new d).item os.length = some (.err .Offset) ∧
    ∀ k, os.length < k → (ExtendedCapabilities.new d).item k = none := by
  have ha := after_chain hc (ExtendedCapabilities.new d) rfl rfl
  have hn := next_low { ExtendedCapabilities.new d with next_capability_offset := q } h0 hq
  refine ⟨?_, ?_⟩
  · unfold ExtendedCapabilities.item
    rw [ha, hn]
  · intro k hk
    obtain ⟨j, rfl⟩ := Nat.exists_eq_add_of_le (Nat.succ_le_of_lt hk)
    have hz := ecap_stays_ended (ExtendedCapabilities.mk d 0) (by rw [next_zero _ rfl]) j
    unfold ExtendedCapabilities.item at hz ⊢
    rw [Nat.succ_eq_add_one, after_add, after_add, ha]
    simp only [ExtendedCapabilities.after, hn]
    exact hz

/-- The hypotheses are met: the capability at 0x100 links to 0x040. -/
example : Chain [0x00, 0x00, 0x01, 0x04] 0x100 [0x100] 0x040 := .step (by decide) (.stop _)

/-- C25: an offset whose header is not inside the space gives exactly one `Header` error, naming the
offset, and ends the walk. -/
theorem ecap_walk_dangling (d : Bytes) (os : List U16) (q : U16) (hc : Chain d 0x100 os q)
    (hq : 0x100 ≤ q.toNat) (hl : d.length < q.toNat - 0x100 + 4) :
    (ExtendedCapabilities.new d).item os.length = some (.err (.Header q)) ∧
    ∀ k, os.length < k → (ExtendedCapabilities.new d).item k = none := by
  have hf : ¬ fits d q := fun h => by have := h.2; omega
  have ha := after_chain hc (ExtendedCapabilities.new d) rfl rfl
  have hn := next_dangling { ExtendedCapabilities.new d with next_capability_offset := q } hq hf
  refine ⟨?_, ?_⟩
  · unfold ExtendedCapabilities.item
    rw [ha, hn]
  · intro k hk
    obtain ⟨j, rfl⟩ := Nat.exists_eq_add_of_le (Nat.succ_le_of_lt hk)
    have hz := ecap_stays_ended (ExtendedCapabilities.mk d 0) (by rw [next_zero _ rfl]) j
    unfold ExtendedCapabilities.item at hz ⊢
    rw [Nat.succ_eq_add_one, after_add, after_add, ha]
    simp only [ExtendedCapabilities.after, hn]
    exact hz

/-- The hypotheses are met: the capability at 0x100 links to 0xffc in a space of four bytes. -/
example : Chain [0x00, 0x00, 0xc1, 0xff] 0x100 [0x100] 0xffc := .step (by decide) (.stop _)

/-- C26 (the code violates it): an extended capability linking to itself is reported for ever. -/
theorem ecap_walk_cycle (k : Nat) :
    (ExtendedCapabilities.new [0x00, 0x00, 0x01, 0x10]).item k = some (.ok ⟨.Null, 1, 0x100⟩) := by
  have hs : (ExtendedCapabilities.new [0x00, 0x00, 0x01, 0x10]).next =
      (some (.ok ⟨.Null, 1, 0x100⟩), ExtendedCapabilities.new [0x00, 0x00, 0x01, 0x10]) := by
    decide +kernel
  unfold ExtendedCapabilities.item
  rw [after_fixed _ (by rw [hs]), hs]

/-- C26 (the code violates it): not every walk terminates. -/
theorem ecap_walk_not_always_terminating :
    ¬ ∀ d : Bytes, (ExtendedCapabilities.new d).Terminates := by
  intro hall
  obtain ⟨n, hn⟩ := hall [0x00, 0x00, 0x01, 0x10]
  have := hn n (Nat.le_refl _)
  rw [ecap_walk_cycle] at this
  cases this

/-- C26 (what is missing: cyclic chains, where the walk is endless): the walk terminates exactly when
the chain of next offsets reaches an offset without extended capability. -/
theorem ecap_walk_terminates_iff_partial (d : Bytes) :
    (ExtendedCapabilities.new d).Terminates ↔ ∃ os q, Chain d 0x100 os q ∧ ¬ live d q := by
  constructor
  · rintro ⟨n, hn⟩
    rcases chain_dichotomy d 0x100 n with ⟨os, q, hc, hl⟩ | ⟨os, q, hc, _, hq⟩
    · refine ⟨os, q, hc, fun hlive => ?_⟩
      have hnone := hn n (Nat.le_refl _)
      unfold ExtendedCapabilities.item at hnone
      rw [← hl, after_chain hc (ExtendedCapabilities.new d) rfl rfl, next_live _ hlive] at hnone
      cases hnone
    · exact ⟨os, q, hc, hq⟩
  · rintro ⟨os, q, hc, hq⟩
    refine ⟨os.length + 1, fun k hk => ?_⟩
    by_cases h0 : q = 0
    · have := (ecap_walk_end d os q hc (.inl h0) k).not.2 (by omega)
      simpa using this
    · by_cases hlow : q.toNat < 0x100
      · exact (ecap_walk_low d os q hc h0 hlow).2 k (by omega)
      · by_cases hf : fits d q
        · have hz : header d q = 0 := by
            by_contra hz
            exact hq ⟨hf, hz⟩
          have := (ecap_walk_end d os q hc (.inr ⟨hf, hz⟩) k).not.2 (by omega)
          simpa using this
        · have hl : d.length < q.toNat - 0x100 + 4 := by
            by_contra hl
            exact hf ⟨by omega, by omega⟩
          exact (ecap_walk_dangling d os q hc (by omega) hl).2 k (by omega)

/-- C26 (what is missing: cyclic chains): a walk that terminates yields at most 3841 items (3840
extended capabilities at different offsets and one error), and no more than the space has bytes. -/
theorem ecap_walk_bound_partial (d : Bytes) (ht : (ExtendedCapabilities.new d).Terminates) (k : Nat)
    (hk : 3840 < k ∨ d.length - 3 < k) : (ExtendedCapabilities.new d).item k = none := by
  obtain ⟨os, q, hc, hq⟩ := (ecap_walk_terminates_iff_partial d).1 ht
  have hl := chain_length hc (by decide) hq
  have hk' : os.length < k := by omega
  by_cases h0 : q = 0
  · have := (ecap_walk_end d os q hc (.inl h0) k).not.2 (by omega)
    simpa using this
  · by_cases hlow : q.toNat < 0x100
    · exact (ecap_walk_low d os q hc h0 hlow).2 k hk'
    · by_cases hf : fits d q
      · have hz : header d q = 0 := by
          by_contra hz
          exact hq ⟨hf, hz⟩
        have := (ecap_walk_end d os q hc (.inr ⟨hf, hz⟩) k).not.2 (by omega)
        simpa using this
      · have hl : d.length < q.toNat - 0x100 + 4 := by
          by_contra hl
          exact hf ⟨by omega, by omega⟩
        exact (ecap_walk_dangling d os q hc (by omega) hl).2 k hk'

/-- C26 (what is missing: cyclic chains): the walk terminates when every next offset is smaller than
0x100 or larger than the offset of its capability. -/
theorem ecap_walk_increasing_partial (d : Bytes)
    (h : ∀ o, live d o → (capNext d o).toNat < 0x100 ∨ o.toNat < (capNext d o).toNat) :
    (ExtendedCapabilities.new d).Terminates := by
  rw [ecap_walk_terminates_iff_partial]
  have key : ∀ (n : Nat) (o : U16), 0x10000 - o.toNat ≤ n → ∃ os q, Chain d o os q ∧ ¬ live d q := by
    intro n
    induction n with
    | zero => intro o ho; have := o.isLt; omega
    | succ n ih =>
      intro o ho
      by_cases hl : live d o
      · rcases h o hl with hn | hn
        · exact ⟨[o], _, .step hl (.stop _), fun hx => by have := hx.1.1; omega⟩
        · obtain ⟨os, q, hc, hq⟩ := ih (capNext d o) (by omega)
          exact ⟨o :: os, q, .step hl hc, hq⟩
      · exact ⟨[], o, .stop _, hl⟩
  exact key _ 0x100 (Nat.le_refl _)

example : (ExtendedCapabilities.new sampleRegion).Terminates :=
  (ecap_walk_terminates_iff_partial _).2
    ⟨[0x100, 0x118, 0x110], 0, .step (by decide) (.step (by decide) (.step (by decide) (.stop _))),
      by decide⟩

/-- C27 (what is missing: the thirteen ids of `fromStart`, which the code decodes from the start of
the space): the reported extended capability is its own structure decoded. -/
theorem ecap_item_partial (d : Bytes) (o : U16) (hl : live d o)
    (h : capId d o ∉ fromStart ∨ o = 0x100) :
    (ExtendedCapabilities.mk d o).next.1 = some (itemSpec d o) := by
  rw [next_live (ExtendedCapabilities.mk d o) hl]
  unfold itemAt itemSpec
  rcases h with h | h
  · rw [kindSpec_structure o _ d (structureAt d o) _ h]
  · have : structureAt d o = d := by subst h; simp [structureAt]
    rw [this]

/-- C27 (what is missing: the ids of `fromStart`): what is reported at `o`, and where the walk goes
next, depends only on the bytes from `o` on. -/
theorem ecap_local_partial (d d' : Bytes) (o : U16) (hl : live d o) (h : capId d o ∉ fromStart)
    (hd : d.drop (o.toNat - 0x100) = d'.drop (o.toNat - 0x100)) :
    (ExtendedCapabilities.mk d o).next.1 = (ExtendedCapabilities.mk d' o).next.1 ∧
    (ExtendedCapabilities.mk d o).next.2.next_capability_offset =
      (ExtendedCapabilities.mk d' o).next.2.next_capability_offset := by
  have hh : header d o = header d' o := by
    unfold header
    have e : ∀ x : Bytes, rd32 x (o.toNat - 0x100) = rd32 (x.drop (o.toNat - 0x100)) 0 := by
      intro x; rw [rd32_drop, Nat.add_zero]
    rw [e d, e d', hd]
  have hid : capId d o = capId d' o := by unfold capId; rw [hh]
  have hl' : live d' o := by
    refine ⟨⟨hl.1.1, ?_⟩, hh ▸ hl.2⟩
    have := congrArg List.length hd
    simp only [List.length_drop] at this
    have := hl.1.2
    omega
  rw [ecap_item_partial d o hl (.inl h), ecap_item_partial d' o hl' (.inl (hid ▸ h)),
    next_live (ExtendedCapabilities.mk d o) hl, next_live (ExtendedCapabilities.mk d' o) hl']
  unfold itemSpec capNext structureAt report capVersion
  rw [hd, hid, hh]
  exact ⟨rfl, rfl⟩

example : live sampleRegion 0x118 ∧ capId sampleRegion 0x118 ∉ fromStart := by decide

/-- C27 (the code violates it): for the ids of `fromStart` the registers are those of the structure
at 0x100, whatever the offset of the capability is. -/
theorem ecap_item_from_start (d : Bytes) (o : U16) (hl : live d o) (h : capId d o ∈ fromStart) :
    (ExtendedCapabilities.mk d o).next.1 =
      some (report d o (kindSpec o (capId d o) d (d.drop 4))) := by
  rw [next_live (ExtendedCapabilities.mk d o) hl]
  unfold itemAt
  rw [kindSpec_registers o _ d _ (d.drop 4) h]

/-- An LN requester capability at 0x108, with registers 0; at 0x104 the byte `x`. -/
def lnrRegion (x : U8) : Bytes :=
  [0x00, 0x00, 0x81, 0x10, x, 0, 0, 0, 0x1c, 0x00, 0x01, 0x00, 0, 0, 0, 0]

/-- C27 (the code violates it): a byte in front of a capability changes what is reported for it. -/
theorem ecap_not_local :
    (lnrRegion 0).drop 8 = (lnrRegion 1).drop 8 ∧
    (ExtendedCapabilities.new (lnrRegion 0)).item 1 ≠
      (ExtendedCapabilities.new (lnrRegion 1)).item 1 := by decide +kernel

/-- C27 (the code violates it): not every reported extended capability is its own structure
decoded. -/
theorem ecap_item_fails : ¬ ∀ (d : Bytes) (o : U16), live d o →
    (ExtendedCapabilities.mk d o).next.1 = some (itemSpec d o) := by
  intro h
  have := h (lnrRegion 1) 0x108 (by decide +kernel)
  revert this
  decide +kernel

/-- C28: for every id and data the decoded kind (or error) is the assigned one; `bytes` is the
structure with its header. -/
theorem ecap_dispatch (o id : U16) (ecap_data bytes : Bytes) :
    decodeKind o id ecap_data bytes = kindSpec o id bytes ecap_data :=
  decodeKind_eq o id bytes ecap_data

/-- C28: `id()` of a decoded extended capability is the id it was decoded from, and unassigned ids
(above 0x2c), and no others, are reported as `Reserved`. -/
theorem ecap_kind_of_id (o id : U16) (ecap_data bytes : Bytes) (k : ExtendedCapabilityKind) (v : U8)
    (hk : decodeKind o id ecap_data bytes = .ok k) :
    (ExtendedCapability.mk k v o).id = id ∧ ((∃ i, k = .Reserved i) ↔ 0x2c < id.toNat) := by
  rw [ecap_dispatch] at hk
  exact ⟨kindSpec_id o id _ _ k v hk, kindSpec_reserved o id _ _ k hk⟩

example : decodeKind 0x100 0x2d [] [] = .ok (.Reserved 0x2d) := by decide +kernel
example : decodeKind 0x100 0x18 [0x01, 0x04, 0x02, 0x08] [] ≠ decodeKind 0x100 0x18 [] [] := by
  decide +kernel

/-- The ids above 0x2c that have a variant of their own, with that variant. -/
def namedOnly : List (U16 × ExtendedCapabilityKind) :=
  [(0x2d, .ShadowFunctions), (0x2e, .DataObjectExchange), (0x2f, .Device3),
   (0x30, .IntegrityAndDataEncryption), (0x31, .PhysicalLayer64GTps), (0x32, .FlitLogging),
   (0x33, .FlitPerformanceMeasurement), (0x34, .FlitErrorInjection)]

/-- C81 (the code violates it): the ids 0x2d to 0x34 have variants of their own, with these ids, but
are decoded as reserved ones whatever the data. -/
theorem ecap_named_not_decoded (x : U16 × ExtendedCapabilityKind) (hx : x ∈ namedOnly) :
    (∀ v o, (ExtendedCapability.mk x.2 v o).id = x.1) ∧ (∀ i, x.2 ≠ .Reserved i) ∧
      ∀ (o : U16) (ecap_data bytes : Bytes),
        decodeKind o x.1 ecap_data bytes = .ok (.Reserved x.1) := by
  simp only [namedOnly, List.mem_cons, List.not_mem_nil, or_false] at hx
  rcases hx with h | h | h | h | h | h | h | h <;> subst h <;>
    exact ⟨fun _ _ => rfl, fun _ h => (by cases h), fun _ _ _ => (by rw [ecap_dispatch]; rfl)⟩

/-- C81: no variant of its own has an id above 0x34. -/
theorem ecap_id_le (k : ExtendedCapabilityKind) (v : U8) (o : U16) (hk : ∀ i, k ≠ .Reserved i) :
    (ExtendedCapability.mk k v o).id.toNat ≤ 0x34 := by
  cases k
  case Reserved i => exact absurd rfl (hk i)
  all_goals (simp only [ExtendedCapability.id]; decide)

/-- C81: an extended capability of the kind of a variant has been decoded from the id of that variant,
and every id up to 0x2c, if it is decoded at all, is decoded to a variant of its own. Missing: the ids
0x2d to 0x34. -/
theorem ecap_named_decoded_partial (o id : U16) (ecap_data bytes : Bytes)
    (k : ExtendedCapabilityKind) (hk : decodeKind o id ecap_data bytes = .ok k)
    (hid : id.toNat ≤ 0x2c) :
    (∀ v, (ExtendedCapability.mk k v o).id = id) ∧ ∀ i, k ≠ .Reserved i :=
  ⟨fun v => (ecap_kind_of_id o id ecap_data bytes k v hk).1, fun i h => by
    have := ((ecap_kind_of_id o id ecap_data bytes k 0 hk).2).1 ⟨i, h⟩
    omega⟩

example : decodeKind 0x100 0x18 [0x01, 0x04, 0x02, 0x08] [] =
    .ok (.LatencyToleranceReporting (.spec [0x01, 0x04, 0x02, 0x08])) := by
  rw [ecap_dispatch]; rfl

/-- C29: no call of `next`, in any state, panics. -/
theorem ecap_next_never_panics (s : ExtendedCapabilities) : s.next.1 ≠ some .panic := by
  by_cases h0 : s.next_capability_offset = 0
  · rw [next_zero s h0]; simp
  · by_cases hq : s.next_capability_offset.toNat < 0x100
    · rw [next_low s h0 hq]; simp
    · by_cases hf : fits s.ecs s.next_capability_offset
      · by_cases hz : header s.ecs s.next_capability_offset = 0
        · rw [next_empty s hf hz]; simp
        · rw [next_live s ⟨hf, hz⟩]
          have := kindSpec_ne_panic s.next_capability_offset
            (capId s.ecs s.next_capability_offset) s.ecs
            ((structureAt s.ecs s.next_capability_offset).drop 4)
          unfold itemAt report
          split <;> simp_all
      · rw [next_dangling s (by omega) hf]; simp

/-- C29: no extended configuration space makes a step of the walk panic. -/
theorem ecap_walk_never_panics (d : Bytes) (k : Nat) :
    (ExtendedCapabilities.new d).item k ≠ some .panic := ecap_next_never_panics _

end Pcics.ExtendedCapabilities
