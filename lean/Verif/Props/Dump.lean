import Verif.Model.Dump
import Verif.Spec.Dump
import Verif.Props.Capabilities
import Verif.Props.ExtendedCapabilities
/- C82: a whole dump.  C83: the capabilities list bit.  C84: reserved bits of links. -/

namespace Pcics
open Spec

/-! A sample: the headers and regions of the samples of C16 and C24 put together. -/

@[irreducible] def sampleDump : Bytes :=
  (List.replicate 0x34 0 ++ [0x80] ++ List.replicate 11 0) ++
  (sampleRegion ++ List.replicate (192 - sampleRegion.length) 0) ++ ExtendedCapabilities.sampleRegion

theorem byteAt_bytesOf (D : Bytes) (a b i : Nat) (h : a + i < b) :
    byteAt (bytesOf D a b) i = byteAt D (a + i) := by
  simp only [byteAt, bytesOf, List.getD_eq_getElem?_getD, List.getElem?_drop]
  rw [List.getElem?_take_of_lt h]

theorem header_spec_take (D : Bytes) (h : 64 ≤ D.length) :
    Header.Header.spec (D.take 64) = Header.Header.spec D := by
  have := Header.header_prefix (D.take 64) D (by simp; omega) (by rw [List.take_take, Nat.min_self])
  rw [Header.header_accepts_iff, Header.header_accepts_iff, if_pos (by simp; omega),
    if_pos h] at this
  exact Res.ok.inj this

/-- C82: a dump of at least 256 bytes is decoded with the header at address 0, the capabilities in
addresses 0x40 to 0xff, the extended capabilities from address 0x100 on. -/
theorem dump_parts (D : Bytes) (hD : 256 ≤ D.length) :
    Dump.ofBytes D = .ok {
      header := Header.Header.spec D
      caps := Capabilities.new (bytesOf D 0x40 0x100) (Header.Header.spec D)
      ecaps := .new (bytesOf D 0x100 D.length) } := by
  have h1 : (sliceRange D 0 DDR_OFFSET : Res Empty Bytes) = .ok (D.take 64) := by
    unfold sliceRange DDR_OFFSET; rw [if_pos (by omega)]; simp
  have h2 : (sliceRange D DDR_OFFSET ExtendedCapabilities.ECS_OFFSET : Res Empty Bytes) =
      .ok (bytesOf D 0x40 0x100) := by
    unfold sliceRange DDR_OFFSET ExtendedCapabilities.ECS_OFFSET; rw [if_pos (by omega)]; rfl
  have h3 : (sliceRange D ExtendedCapabilities.ECS_OFFSET D.length : Res Empty Bytes) =
      .ok (bytesOf D 0x100 D.length) := by
    unfold sliceRange ExtendedCapabilities.ECS_OFFSET; rw [if_pos (by omega)]; rfl
  have h4 : Header.Header.ofBytes (D.take 64) = .ok (Header.Header.spec D) := by
    rw [Header.header_accepts_iff, if_pos (by simp; omega), header_spec_take D (by omega)]
  unfold Dump.ofBytes
  rw [h1]
  show (match Header.Header.ofBytes (D.take 64) with
    | .ok header => _
    | _ => _) = _
  rw [h4]
  show (sliceRange D DDR_OFFSET _ >>= _) = _
  rw [h2]
  show (sliceRange D _ D.length >>= _) = _
  rw [h3]
  rfl

/-- C82: a shorter dump cannot be cut up as the usage example does; indexing panics. -/
theorem dump_short (D : Bytes) (hD : D.length < 256) : Dump.ofBytes D = .panic := by
  unfold Dump.ofBytes
  by_cases h : 64 ≤ D.length
  · have h1 : (sliceRange D 0 DDR_OFFSET : Res Empty Bytes) = .ok (D.take 64) := by
      unfold sliceRange DDR_OFFSET; rw [if_pos (by omega)]; simp
    have h4 : Header.Header.ofBytes (D.take 64) = .ok (Header.Header.spec D) := by
      rw [Header.header_accepts_iff, if_pos (by simp; omega), header_spec_take D (by omega)]
    have h2 : (sliceRange D DDR_OFFSET ExtendedCapabilities.ECS_OFFSET : Res Empty Bytes) =
        .panic := by
      unfold sliceRange DDR_OFFSET ExtendedCapabilities.ECS_OFFSET; rw [if_neg (by omega)]
    rw [h1]
    show (match Header.Header.ofBytes (D.take 64) with
      | .ok header => _
      | _ => _) = _
    rw [h4]
    show (sliceRange D DDR_OFFSET _ >>= _) = _
    rw [h2]
    rfl
  · have h1 : (sliceRange D 0 DDR_OFFSET : Res Empty Bytes) = .panic := by
      unfold sliceRange DDR_OFFSET; rw [if_neg (by omega)]
    rw [h1]
    rfl

/-- C82: the slices of a full dump have the lengths the crate declares. -/
theorem dump_lengths (D : Bytes) (hD : D.length = 4096) :
    (bytesOf D 0x40 0x100).length = DDR_LENGTH ∧ (bytesOf D 0x100 D.length).length = ECS_LENGTH := by
  simp only [bytesOf, List.length_drop, List.length_take, DDR_LENGTH, ECS_LENGTH, DDR_OFFSET,
    ExtendedCapabilities.ECS_OFFSET, hD]
  omega

theorem capFits_dump (D : Bytes) (hD : 256 ≤ D.length) (p : U8) :
    capFits (bytesOf D 0x40 0x100) p ↔ 0x40 ≤ p.toNat ∧ p.toNat + 2 ≤ 0x100 := by
  simp only [capFits, bytesOf, List.length_drop, List.length_take]
  omega

theorem capChain_dump {D : Bytes} (hD : 256 ≤ D.length) {p q : U8} {ps : List U8}
    (hc : DumpChain D p ps q) : CapChain (bytesOf D 0x40 0x100) p ps q := by
  induction hc with
  | stop p => exact .stop p
  | @step p q ps low high _ ih =>
    refine .step ((capFits_dump D hD p).2 ⟨low, high⟩) ?_
    have : capNext (bytesOf D 0x40 0x100) p = byteAt D (p.toNat + 1) := by
      unfold capNext
      rw [byteAt_bytesOf _ _ _ _ (by omega)]
      congr 1; omega
    rw [this]; exact ih

theorem chain_fits {d : Bytes} {p q : U8} {ps : List U8} (hc : CapChain d p ps q) (k : Nat) (r : U8)
    (hk : ps[k]? = some r) : capFits d r := (chain_take hc k r hk).2.1

/-- C82: the capabilities of a dump are those found by following the next pointers through the dump:
the `k`-th item reports the address of the `k`-th capability, and its kind is decoded from the id at
that address and the bytes from two further up to address 0xff. -/
theorem dump_capabilities (D : Bytes) (m : Dump) (hm : Dump.ofBytes D = .ok m) (ps : List U8) (q : U8)
    (hc : DumpChain D m.header.capabilities_pointer ps q) (k : Nat) (p : U8)
    (hk : ps[k]? = some p) :
    m.caps.item k = some ((kindSpec m.header p (byteAt D p.toNat)
      (bytesOf D (p.toNat + 2) 0x100)).map' fun kind => ⟨p, kind⟩) := by
  by_cases hD : 256 ≤ D.length
  · rw [dump_parts D hD] at hm
    cases hm
    have hc' := capChain_dump hD hc
    have hf := chain_fits hc' k p hk
    have hlow := hf.1
    have hhigh := ((capFits_dump D hD p).1 hf).2
    show (Capabilities.new _ _).item k = _
    rw [cap_walk _ _ ps q hc' k p hk]
    have hid : capId (bytesOf D 0x40 0x100) p = byteAt D p.toNat := by
      unfold capId
      rw [byteAt_bytesOf _ _ _ _ (by omega)]
      congr 1; omega
    have hdata : capData (bytesOf D 0x40 0x100) p = bytesOf D (p.toNat + 2) 0x100 := by
      unfold capData bytesOf
      rw [List.drop_drop]
      congr 1; omega
    unfold capItem
    rw [hid, hdata]
    cases kindSpec (Header.Header.spec D) p (byteAt D p.toNat) (bytesOf D (p.toNat + 2) 0x100) <;> rfl
  · rw [dump_short D (by omega)] at hm; cases hm

/-- C82: and there are no others, if the chain ends with a zero pointer. -/
theorem dump_capabilities_end (D : Bytes) (m : Dump) (hm : Dump.ofBytes D = .ok m) (ps : List U8)
    (hc : DumpChain D m.header.capabilities_pointer ps 0) (k : Nat) :
    (m.caps.item k).isSome ↔ k < ps.length := by
  by_cases hD : 256 ≤ D.length
  · rw [dump_parts D hD] at hm
    cases hm
    exact cap_walk_end _ _ ps (capChain_dump hD hc) k
  · rw [dump_short D (by omega)] at hm; cases hm

theorem bytesOf_end (D : Bytes) (a : Nat) : bytesOf D a D.length = D.drop a := by
  unfold bytesOf; rw [List.take_length]

theorem ecs_header (D : Bytes) (o : U16) (h : 0x100 ≤ o.toNat) :
    ExtendedCapabilities.header (bytesOf D 0x100 D.length) o = rd32 D o.toNat := by
  unfold ExtendedCapabilities.header
  rw [bytesOf_end]
  simp only [rd32, byteAt_drop]
  have e : ∀ j, 0x100 + (o.toNat - 0x100 + j) = o.toNat + j := by intro j; omega
  have e0 : 0x100 + (o.toNat - 0x100) = o.toNat := by omega
  simp only [e, e0]

theorem echain_dump {D : Bytes} {o q : U16} {os : List U16}
    (hc : DumpEChain D o os q) : ExtendedCapabilities.Chain (bytesOf D 0x100 D.length) o os q := by
  induction hc with
  | stop o => exact .stop o
  | @step o q os low high head _ ih =>
    refine .step ⟨⟨low, ?_⟩, ?_⟩ ?_
    · rw [bytesOf_end, List.length_drop]; omega
    · rw [ecs_header D o low]; exact head
    · unfold ExtendedCapabilities.capNext
      rw [ecs_header D o low]; exact ih

/-- C82: the extended capabilities of a dump are those found by following the next offsets through
the dump from address 0x100: the `k`-th item, when decoded, reports the address of the `k`-th
extended capability, and the version and id in the double word there. -/
theorem dump_extended_capabilities (D : Bytes) (m : Dump) (hm : Dump.ofBytes D = .ok m)
    (os : List U16) (q : U16) (hc : DumpEChain D 0x100 os q) (k : Nat) (o : U16)
    (hk : os[k]? = some o) :
    ∃ r, m.ecaps.item k = some r ∧ r ≠ .panic ∧ ∀ c, r = .ok c →
      c.offset = o ∧ c.version = fld (rd32 D o.toNat) 16 4 ∧ c.id = fld (rd32 D o.toNat) 0 16 := by
  by_cases hD : 256 ≤ D.length
  · rw [dump_parts D hD] at hm
    cases hm
    have hc' := echain_dump hc
    have hw := ExtendedCapabilities.ecap_walk _ os q hc' k o hk
    have hlow : 0x100 ≤ o.toNat := (ExtendedCapabilities.chain_take hc' k o hk).2.1.1.1
    refine ⟨_, hw, ?_, fun c hok => ?_⟩
    · intro hp
      have := ExtendedCapabilities.ecap_walk_never_panics (bytesOf D 0x100 D.length) k
      rw [hw, hp] at this
      exact this rfl
    · have := ExtendedCapabilities.ecap_item_header _ o c hok
      have he := ecs_header D o hlow
      unfold ExtendedCapabilities.header at he
      rw [he] at this
      exact this
  · rw [dump_short D (by omega)] at hm; cases hm

/-- C82: for the ids decoded from their own registers, the kind too is that of the bytes of the dump:
from the header at the reported address on. -/
theorem dump_extended_kind (D : Bytes) (m : Dump) (hm : Dump.ofBytes D = .ok m)
    (os : List U16) (q : U16) (hc : DumpEChain D 0x100 os q) (k : Nat) (o : U16)
    (hk : os[k]? = some o)
    (hid : fld (rd32 D o.toNat) 0 16 ∉ ExtendedCapabilities.fromStart) :
    m.ecaps.item k = some ((ExtendedCapabilities.kindSpec o (fld (rd32 D o.toNat) 0 16)
      (D.drop o.toNat) (D.drop (o.toNat + 4))).map' fun kind =>
        ⟨kind, fld (rd32 D o.toNat) 16 4, o⟩) := by
  by_cases hD : 256 ≤ D.length
  · rw [dump_parts D hD] at hm
    cases hm
    have hc' := echain_dump hc
    have hlive := (ExtendedCapabilities.chain_take hc' k o hk).2.1
    have hlow : 0x100 ≤ o.toNat := hlive.1.1
    have hw := ExtendedCapabilities.ecap_walk _ os q hc' k o hk
    show (ExtendedCapabilities.ExtendedCapabilities.new _).item k = _
    rw [hw]
    unfold ExtendedCapabilities.itemAt ExtendedCapabilities.structureAt ExtendedCapabilities.report
      ExtendedCapabilities.capVersion ExtendedCapabilities.capId
    rw [ecs_header D o hlow, bytesOf_end, List.drop_drop, List.drop_drop,
      ExtendedCapabilities.kindSpec_structure o _ _ (D.drop o.toNat) _ hid]
    have e : 0x100 + (o.toNat - 0x100 + 4) = o.toNat + 4 := by omega
    rw [e]
    cases ExtendedCapabilities.kindSpec o (fld (rd32 D o.toNat) 0 16) (D.drop o.toNat)
      (D.drop (o.toNat + 4)) <;> rfl
  · rw [dump_short D (by omega)] at hm; cases hm

/-- C82: nothing obtained from a dump that can be cut up panics. -/
theorem dump_never_panics (D : Bytes) (m : Dump) (_hm : Dump.ofBytes D = .ok m) (k : Nat) :
    m.caps.item k ≠ some .panic ∧ m.ecaps.item k ≠ some .panic :=
  ⟨cap_next_never_panics _, ExtendedCapabilities.ecap_next_never_panics _⟩

example : 256 ≤ sampleDump.length ∧ (Header.Header.spec sampleDump).capabilities_pointer = 0x80 := by
  decide +kernel
example : DumpChain sampleDump 0x80 [0x80, 0x70, 0xa8] 0 := by
  have n0 : byteAt sampleDump ((0x80 : U8).toNat + 1) = 0x70 := by decide +kernel
  have n1 : byteAt sampleDump ((0x70 : U8).toNat + 1) = 0xa8 := by decide +kernel
  have n2 : byteAt sampleDump ((0xa8 : U8).toNat + 1) = 0 := by decide +kernel
  refine .step (by decide) (by decide) ?_
  rw [n0]
  refine .step (by decide) (by decide) ?_
  rw [n1]
  refine .step (by decide) (by decide) ?_
  rw [n2]
  exact .stop _
example : DumpEChain sampleDump 0x100 [0x100, 0x118, 0x110] 0 := by
  have n0 : (fld (rd32 sampleDump (0x100 : U16).toNat) 20 12 : U16) = 0x118 := by decide +kernel
  have n1 : (fld (rd32 sampleDump (0x118 : U16).toNat) 20 12 : U16) = 0x110 := by decide +kernel
  have n2 : (fld (rd32 sampleDump (0x110 : U16).toNat) 20 12 : U16) = 0 := by decide +kernel
  have a0 : 0x100 ≤ (0x100 : U16).toNat ∧ (0x100 : U16).toNat + 4 ≤ sampleDump.length ∧
      rd32 sampleDump (0x100 : U16).toNat ≠ 0 := by decide +kernel
  have a1 : 0x100 ≤ (0x118 : U16).toNat ∧ (0x118 : U16).toNat + 4 ≤ sampleDump.length ∧
      rd32 sampleDump (0x118 : U16).toNat ≠ 0 := by decide +kernel
  have a2 : 0x100 ≤ (0x110 : U16).toNat ∧ (0x110 : U16).toNat + 4 ≤ sampleDump.length ∧
      rd32 sampleDump (0x110 : U16).toNat ≠ 0 := by decide +kernel
  refine .step a0.1 a0.2.1 a0.2.2 ?_
  rw [n0]
  refine .step a1.1 a1.2.1 a1.2.2 ?_
  rw [n1]
  refine .step a2.1 a2.2.1 a2.2.2 ?_
  rw [n2]
  exact .stop _
example : fld (rd32 sampleDump 0x100) 0 16 ∉ ExtendedCapabilities.fromStart := by decide +kernel
example : (List.replicate 4096 0 : Bytes).length = 4096 := by rw [List.length_replicate]

/-! ### C83 -/

/-- C83 (the code violates it): the documentation says that the capabilities pointer is only valid
if the capabilities list bit of the status register is set, but a function that clears the bit still
has its pointer register followed. -/
theorem cap_list_bit_fails :
    ¬ ∀ (D : Bytes) (m : Dump), Dump.ofBytes D = .ok m → flag (rd16 D 6) 4 = false →
      ∀ k, m.caps.item k = none := by
  intro hall
  have hD : 256 ≤ sampleDump.length := by decide +kernel
  have := hall sampleDump _ (dump_parts sampleDump hD) (by decide +kernel) 0
  revert this
  decide +kernel

/-- C83, what holds: whatever the bit, there are no capabilities exactly when the pointer register
(at 0x34, for CardBus bridges at 0x14) is zero above its two reserved bits, or the header layout is
reserved. -/
theorem cap_list_bit_partial (D : Bytes) (m : Dump) (hm : Dump.ofBytes D = .ok m) :
    (∀ k, m.caps.item k = none) ↔
      (Header.headerTypeCode D = 0 ∨ Header.headerTypeCode D = 1 → (byteAt D 0x34).toNat < 4) ∧
      (Header.headerTypeCode D = 2 → (byteAt D 0x14).toNat < 4) := by
  by_cases hD : 256 ≤ D.length
  · have hp := Header.header_capabilities_pointer D (Header.Header.spec D)
      (by rw [Header.header_accepts_iff, if_pos (by omega)])
    rw [dump_parts D hD] at hm
    cases hm
    show (∀ k, (Capabilities.new _ _).item k = none) ↔ _
    have hz : (∀ k, (Capabilities.new (bytesOf D 0x40 0x100) (Header.Header.spec D)).item k = none) ↔
        (Header.Header.spec D).capabilities_pointer = 0 := by
      constructor
      · intro h
        have h0 := h 0
        by_contra hne
        have h1 : (Capabilities.new (bytesOf D 0x40 0x100) (Header.Header.spec D)).next.1 ≠ none := by
          unfold Capabilities.next
          split
          · simp
          · rename_i hn; exact absurd hne hn
        exact h1 h0
      · intro h k
        unfold Capabilities.item
        rw [after_zero _ h, next_zero _ h]
    rw [hz]
    obtain ⟨_, h01, h2, h3⟩ := hp
    have toNat0 : (Header.Header.spec D).capabilities_pointer = 0 ↔
        (Header.Header.spec D).capabilities_pointer.toNat = 0 := by
      rw [← BitVec.toNat_inj]; rfl
    rw [toNat0]
    by_cases c01 : Header.headerTypeCode D = 0 ∨ Header.headerTypeCode D = 1
    · rw [h01 c01]
      have c2 : Header.headerTypeCode D ≠ 2 := by
        rcases c01 with c | c <;> rw [c] <;> decide
      constructor
      · intro h; exact ⟨fun _ => by omega, fun c => absurd c c2⟩
      · intro h; have := h.1 c01; omega
    · by_cases c2 : Header.headerTypeCode D = 2
      · rw [h2 c2]
        constructor
        · intro h; exact ⟨fun c => absurd c c01, fun _ => by omega⟩
        · intro h; have := h.2 c2; omega
      · have : 2 < (Header.headerTypeCode D).toNat := by
          have e : ∀ c : U8, ¬(c = 0 ∨ c = 1) → ¬c = 2 → 2 < c.toNat := by decide +kernel
          exact e _ c01 c2
        rw [h3 this]
        exact ⟨fun _ => ⟨fun c => absurd c c01, fun c => absurd c c2⟩, fun _ => rfl⟩
  · rw [dump_short D (by omega)] at hm; cases hm

example : ∃ m, Dump.ofBytes sampleDump = .ok m := ⟨_, dump_parts _ (by decide +kernel)⟩

/-! ### C84 -/

/-- C84 (the code violates it): the two low bits of a next pointer are reserved and to be masked, as
the code does for the first pointer, but it follows next pointers as they are. -/
theorem cap_link_bits_fail :
    ¬ ∀ (d : Bytes) (h : Header.Header) (ps : List U8) (q : U8),
      MaskedChain d h.capabilities_pointer ps q → ∀ k p, ps[k]? = some p →
        (Capabilities.new d h).item k = some (capItem h d p) := by
  intro hall
  have := hall [0x06, 0x45, 0, 0, 0x0b, 0x00] (sampleHeader 0x40) [0x40, 0x44] 0
    (.step (by decide +kernel) (.step (by decide +kernel) (.stop _))) 1 0x44 rfl
  revert this
  decide +kernel

/-- C84, what holds: where the reserved bits of the pointers met are zero, the walk is the one through
the masked pointers. -/
theorem cap_link_bits_partial (d : Bytes) (h : Header.Header) (ps : List U8) (q : U8)
    (hc : MaskedChain d h.capabilities_pointer ps q)
    (hz : ∀ p ∈ ps, fld (capNext d p) 0 2 = (0 : U8)) (k : Nat) (p : U8) (hk : ps[k]? = some p) :
    (Capabilities.new d h).item k = some (capItem h d p) := by
  refine cap_walk d h ps q ?_ k p hk
  generalize h.capabilities_pointer = p0 at hc
  clear hk
  induction hc with
  | stop p => exact .stop p
  | @step p q ps fits _ ih =>
    refine .step fits ?_
    have e : ∀ b : U8, (fld b 0 2 : U8) = 0 → b &&& 0xfc = b := by decide +kernel
    rw [e _ (hz p (by simp))] at ih
    exact ih fun r hr => hz r (by simp [hr])

example : MaskedChain [0x06, 0x44, 0, 0, 0x0b, 0x00] 0x40 [0x40, 0x44] 0 :=
  .step (by decide) (.step (by decide) (.stop _))
example : ∀ p ∈ ([0x40, 0x44] : List U8), fld (capNext [0x06, 0x44, 0, 0, 0x0b, 0x00] p) 0 2 =
    (0 : U8) := by decide

/-- C84 (the code violates it): the same for the next offsets of extended capabilities. -/
theorem ecap_link_bits_fail :
    ¬ ∀ (d : Bytes) (os : List U16) (q : U16),
      MaskedEChain d 0x100 os q → ∀ k o, os[k]? = some o →
        (ExtendedCapabilities.ExtendedCapabilities.new d).item k =
          some (ExtendedCapabilities.itemAt d o) := by
  intro hall
  have := hall [0x00, 0x00, 0x51, 0x10, 0x11, 0x00, 0x01, 0x00, 0, 0, 0, 0] [0x100, 0x104] 0
    (.step (by decide +kernel) (.step (by decide +kernel) (.stop _))) 1 0x104 rfl
  revert this
  decide +kernel

/-- C84, what holds: where the reserved bits of the offsets met are zero, the walk is the one through
the masked offsets. -/
theorem ecap_link_bits_partial (d : Bytes) (os : List U16) (q : U16)
    (hc : MaskedEChain d 0x100 os q)
    (hz : ∀ o ∈ os, fld (ExtendedCapabilities.capNext d o) 0 2 = (0 : U8)) (k : Nat) (o : U16)
    (hk : os[k]? = some o) :
    (ExtendedCapabilities.ExtendedCapabilities.new d).item k =
      some (ExtendedCapabilities.itemAt d o) := by
  refine ExtendedCapabilities.ecap_walk d os q ?_ k o hk
  generalize (0x100 : U16) = o0 at hc
  clear hk
  induction hc with
  | stop o => exact .stop o
  | @step o q os here _ ih =>
    refine .step here ?_
    have e : ExtendedCapabilities.capNext d o &&& 0xffc = ExtendedCapabilities.capNext d o := by
      have h2 := hz o (by simp)
      have hlt := ExtendedCapabilities.capNext_lt d o
      generalize ExtendedCapabilities.capNext d o = w at *
      have b0 : w.getLsbD 0 = false := by
        have := congrArg (·.getLsbD 0) h2
        simpa [-BitVec.getLsbD_eq_getElem, getLsbD_fld] using this
      have b1 : w.getLsbD 1 = false := by
        have := congrArg (·.getLsbD 1) h2
        simpa [-BitVec.getLsbD_eq_getElem, getLsbD_fld] using this
      have hb : ∀ i, 12 ≤ i → w.getLsbD i = false := fun i hi =>
        Nat.testBit_lt_two_pow (Nat.lt_of_lt_of_le hlt (Nat.pow_le_pow_right (n := 2) (by decide) hi))
      bv_bits [b0, b1, hb]
    rw [e] at ih
    exact ih fun r hr => hz r (by simp [hr])

example : MaskedEChain [0x00, 0x00, 0x41, 0x10, 0x11, 0x00, 0x01, 0x00] 0x100 [0x100, 0x104] 0 :=
  .step (by decide +kernel) (.step (by decide +kernel) (.stop _))
example : ([0x100, 0x104] : List U16).all fun o => fld (ExtendedCapabilities.capNext
    [0x00, 0x00, 0x41, 0x10, 0x11, 0x00, 0x01, 0x00] o) 0 2 = (0 : U8) := by decide +kernel

end Pcics
