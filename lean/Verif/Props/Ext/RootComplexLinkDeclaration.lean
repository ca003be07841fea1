import Verif.Lemmas.Reads
import Verif.Spec.Ext.RootComplexLinkDeclaration
import Verif.Lemmas.Tactics
import Verif.Lemmas.Bv
import Verif.Lemmas.Iter
/- Properties of src/extended_capabilities/root_complex_link_declaration.rs -/

namespace Pcics.RootComplexLinkDeclaration
open Spec

/-- C46: meaning of every code of `ElementType`. -/
theorem ElementType_values (b : U8) : ElementType.ofU8 b = ElementType.spec b := by
  revert b; decide +kernel

/-- C46: every field of `ElementSelfDescription` is at its bit position. -/
theorem ElementSelfDescription_layout (w : U32) :
    ElementSelfDescription.ofU32 w = ElementSelfDescription.spec w := by
  bits_simp [ElementSelfDescription.ofU32, ElementSelfDescription.spec, ElementType_values]

/-- C46: every field of `LinkDescription` is at its bit position. -/
theorem LinkDescription_layout (w : U32) :
    LinkDescription.ofU32 w = LinkDescription.spec w := by
  bits_simp [LinkDescription.ofU32, LinkDescription.spec]

/-- C46, C56: encoding an `ElementType` gives back the code. -/
theorem ElementType_roundtrip (b : U8) : (ElementType.ofU8 b).toU8 = b := by
  revert b; decide +kernel

/-- C46: the copy of the Device Serial Number decoder in this file reads both dwords. -/
theorem DeviceSerialNumber_bytes (d : Bytes) :
    DeviceSerialNumber.ofBytes d =
      if 8 ≤ d.length then .ok ⟨rd32 d 0, rd32 d 4⟩
      else .err { name := "Device Serial Number", size := 8 } := by
  bytes_simp [DeviceSerialNumber.ofBytes]

theorem fld3_cases (w : U32) : (fld w 0 3 : U8).toNat < 8 := by
  simp only [fld, BitVec.toNat_setWidth]
  exact Nat.lt_of_le_of_lt (Nat.mod_le _ _) (BitVec.isLt _)

theorem mask_eq (a : U64) (k : Nat) :
    a &&& (0xffffffffffffffff#64 <<< k) = BitVec.ofNat 64 (a.toNat / 2 ^ k * 2 ^ k) := by
  have h : BitVec.ofNat 64 (a.toNat / 2 ^ k * 2 ^ k) = (a >>> k) <<< k := by
    apply BitVec.eq_of_toNat_eq
    simp [Nat.shiftRight_eq_div_pow, Nat.shiftLeft_eq]
  rw [h]
  apply BitVec.eq_of_getLsbD_eq
  intro i hi
  have h1 : (0xffffffffffffffff#64).getLsbD (i - k) = true := by
    rw [show (0xffffffffffffffff#64) = BitVec.allOnes 64 by decide, BitVec.getLsbD_allOnes]
    simp; omega
  simp only [BitVec.getLsbD_and, BitVec.getLsbD_shiftLeft, BitVec.getLsbD_ushiftRight, h1, hi]
  by_cases hk : i < k
  · simp [hk]
  · simp [hk, -BitVec.getLsbD_eq_getElem, show k + (i - k) = i by omega]

theorem bus_eq (lo : U32) (n : Nat) (h : n ≤ 8) :
    ((lo >>> 20) &&& ~~~(0xffffffff#32 <<< n)).setWidth 8 = (fld lo 20 n : U8) := by
  apply BitVec.eq_of_getLsbD_eq
  intro i hi
  have h1 : i < n ∨ (0xffffffff#32).getLsbD (i - n) = true := by
    rw [show (0xffffffff#32) = BitVec.allOnes 32 by decide, BitVec.getLsbD_allOnes]
    simp; omega
  simp only [getLsbD_fld, BitVec.getLsbD_setWidth, BitVec.getLsbD_and, BitVec.getLsbD_not,
    BitVec.getLsbD_ushiftRight, BitVec.getLsbD_shiftLeft, hi]
  have h32 : i < 32 := by omega
  by_cases hk : i < n
  · simp [hk, h32, -BitVec.getLsbD_eq_getElem]
  · have := h1.resolve_left hk
    simp [hk, h32, this, -BitVec.getLsbD_eq_getElem]

theorem cat_eq (lo hi : U32) :
    hi.setWidth 64 <<< 32 ||| lo.setWidth 64 = (cat hi lo : U64) := by
  bv_bits []

/-- C45: where the parts of a link address come from. -/
theorem LinkAddress_layout (t : U8) (lo hi : U32) :
    LinkAddress.new t lo hi = LinkAddress.spec t lo hi := by
  have hb : (runBits lo do
      let n ← bits 3
      let reserved ← bits 9
      let function ← bits 3
      let device ← bits 5
      return (n, reserved, function, device) : U8 × U16 × U8 × U8) =
      (fld lo 0 3, fld lo 3 9, fld lo 12 3, fld lo 15 5) := by
    bits_simp []
  have hn : (if (fld lo 0 3 : U8) = 0 then 8 else (fld lo 0 3 : U8)).toNat ≤ 8 := by
    have := fld3_cases lo
    split
    · decide
    · omega
  simp only [LinkAddress.new, LinkAddress.spec, hb, cat_eq, mask_eq, bus_eq _ _ hn]

theorem mask_bit (k i : Nat) (hi : i < 64) :
    (0xffffffffffffffff#64 <<< k).getLsbD i = decide (k ≤ i) := by
  have h1 : (0xffffffffffffffff#64).getLsbD (i - k) = true := by
    rw [show (0xffffffffffffffff#64) = BitVec.allOnes 64 by decide, BitVec.getLsbD_allOnes]
    simp; omega
  rw [BitVec.getLsbD_shiftLeft, h1]
  by_cases hk : k ≤ i
  · simp [hk, hi]
  · simp [hk, hi]; omega

theorem mask_lo (lo hi : U32) (n : Nat) (h : n ≤ 8) :
    ((cat hi lo : U64) &&& (0xffffffffffffffff#64 <<< (20 + n))).setWidth 32
      ||| (fld lo 20 n : U8).setWidth 32 <<< 20
      ||| (fld lo 15 5 : U8).setWidth 32 <<< 15
      ||| (fld lo 12 3 : U8).setWidth 32 <<< 12
      ||| (fld lo 3 9 : U16).setWidth 32 <<< 3
      ||| (fld lo 0 3 : U8).setWidth 32 = lo := by
  apply BitVec.eq_of_getLsbD_eq
  intro i hi
  simp only [BitVec.getLsbD_or, BitVec.getLsbD_setWidth, BitVec.getLsbD_and,
    mask_bit _ i (Nat.lt_trans hi (by decide)), BitVec.getLsbD_shiftLeft, getLsbD_fld, getLsbD_cat]
  by_cases h20 : 20 ≤ i
  · have e : 20 + (i - 20) = i := by omega
    by_cases hn : 20 + n ≤ i
    · simp [-BitVec.getLsbD_eq_getElem, hn, hi, h20, e, show i < 64 by omega,
        show ¬ (i - 20 < n) by omega, show ¬ (i - 15 < 5) by omega, show ¬ (i - 12 < 3) by omega,
        show ¬ (i - 3 < 9) by omega, show ¬ (i < 3) by omega]
    · simp [-BitVec.getLsbD_eq_getElem, hn, hi, h20, e, show i < 64 by omega,
        show i - 20 < n by omega, show i - 20 < 8 by omega, show i - 20 < 32 by omega, show ¬ (i - 15 < 5) by omega,
        show ¬ (i - 12 < 3) by omega, show ¬ (i - 3 < 9) by omega, show ¬ (i < 3) by omega,
        show ¬ (i < 20) by omega]
  · have h0 : ¬ (20 + n ≤ i) := by omega
    have h1 : i < 20 := by omega
    simp only [h0, h1, decide_true, decide_false, Bool.and_false, Bool.not_true, Bool.false_and,
      Bool.false_or]
    interval_cases i <;> simp [-BitVec.getLsbD_eq_getElem]

theorem mask_hi (lo hi : U32) (n : Nat) (h : n ≤ 8) :
    (((cat hi lo : U64) &&& (0xffffffffffffffff#64 <<< (20 + n))) >>> 32).setWidth 32 = hi := by
  have : n = 0 ∨ n = 1 ∨ n = 2 ∨ n = 3 ∨ n = 4 ∨ n = 5 ∨ n = 6 ∨ n = 7 ∨ n = 8 := by omega
  rcases this with rfl | rfl | rfl | rfl | rfl | rfl | rfl | rfl | rfl <;> bv_bits []

/-- C45: decoding a link address and encoding it again gives back both dwords, for every link type
and all contents. -/
theorem LinkAddress_roundtrip (t : U8) (lo hi : U32) :
    (LinkAddress.new t lo hi).toDwords = (lo, hi) := by
  rw [LinkAddress_layout, LinkAddress.spec]
  split
  · simp only [LinkAddress.toDwords, Prod.mk.injEq]
    constructor <;> bv_bits []
  · have h3 := fld3_cases lo
    have hn : (if (fld lo 0 3 : U8) = 0 then 8 else (fld lo 0 3 : U8)).toNat ≤ 8 := by
      split
      · decide
      · omega
    have hk : (if (if (fld lo 0 3 : U8) = 0 then 8 else (fld lo 0 3 : U8)) = 8 then 0 else
        (if (fld lo 0 3 : U8) = 0 then 8 else (fld lo 0 3 : U8))) = (fld lo 0 3 : U8) := by
      generalize (fld lo 0 3 : U8) = x at h3
      have : ∀ x : U8, x.toNat < 8 → (if (if x = 0 then 8 else x) = 8 then 0 else
        (if x = 0 then 8 else x)) = x := by decide +kernel
      exact this x h3
    simp only [LinkAddress.toDwords, hk, ← mask_eq, mask_lo _ _ _ hn, mask_hi _ _ _ hn]

/-- C46: a Root Complex Link Declaration parses iff its first four bytes are there, announce at least
one entry and the first entry is there. The entries follow 12 bytes in, cut to the announced
number. -/
theorem RootComplexLinkDeclaration_bytes (d : Bytes) :
    RootComplexLinkDeclaration.ofBytes d =
      if d.length < 4 then .err .ElementSelfDescription
      else if announced d = 0 then .err (.NumberOfLinkEntries (.spec (rd32 d 0)))
      else if d.length < 12 then .err (.ReservedSpace (.spec (rd32 d 0)))
      else if d.length < 28 then .err (.LinkEntry1 (.spec (rd32 d 0)))
      else .ok {
        element_self_description := .spec (rd32 d 0)
        link_entries := {
          chunks := (d.drop 12).take (16 * announced d)
          state := .spec (announced d) (d.length - 12) } } := by
  by_cases h4 : d.length < 4
  · rw [if_pos h4]
    bytes_len [RootComplexLinkDeclaration.ofBytes]
  rw [if_neg h4]
  have hz : (ElementSelfDescription.spec (rd32 d 0)).number_of_link_entries < 1 ↔
      announced d = 0 := by
    simp only [ElementSelfDescription.spec, announced, BitVec.lt_def]
    exact Nat.lt_one_iff
  by_cases h0 : announced d = 0
  · rw [if_pos h0]
    bytes_len [RootComplexLinkDeclaration.ofBytes, ElementSelfDescription_layout]
    rw [if_pos (hz.2 h0)]
  rw [if_neg h0]
  by_cases h12 : d.length < 12
  · rw [if_pos h12]
    bytes_len [RootComplexLinkDeclaration.ofBytes, ElementSelfDescription_layout]
    rw [if_neg (mt hz.1 h0)]
  rw [if_neg h12]
  by_cases h28 : d.length < 28
  · rw [if_pos h28]
    bytes_len [RootComplexLinkDeclaration.ofBytes, ElementSelfDescription_layout]
    rw [if_neg (mt hz.1 h0)]
  rw [if_neg h28]
  bytes_len [RootComplexLinkDeclaration.ofBytes, ElementSelfDescription_layout]
  rw [if_neg (mt hz.1 h0)]
  have ha : (ElementSelfDescription.spec (rd32 d 0)).number_of_link_entries.toNat = announced d := rfl
  simp only [LinkEntries.new, ha, List.length_drop, LinkEntriesState.spec, ge_iff_le,
    Nat.mul_comm (announced d) 16]
  congr 3
  by_cases hl : 16 * announced d ≤ d.length - 12
  · rw [Nat.min_eq_right hl]
  · rw [Nat.min_eq_left (by omega), List.take_of_length_le (by simp),
      List.take_of_length_le (by simp; omega)]

theorem le_next (c : Bytes) (st : LinkEntriesState) (h : 16 ≤ c.length) :
    LinkEntries.next ⟨c, st⟩ = some (.spec c 0, ⟨c.drop 16, st⟩) := by
  have hne : c ≠ [] := by rintro rfl; simp at h
  simp only [LinkEntries.next, chunk_ne hne, Option.bind_eq_bind, Option.bind_some]
  bytes_len [LinkDescription_layout, LinkAddress_layout, LinkEntry.spec, LinkDescription.spec]

theorem le_next_short (c : Bytes) (st : LinkEntriesState) (h : c.length < 16) :
    LinkEntries.next ⟨c, st⟩ = none := by
  by_cases hne : c = []
  · subst hne; rfl
  · simp only [LinkEntries.next, chunk_ne hne, Option.bind_eq_bind, Option.bind_some]
    bytes_len []

theorem le_spec_drop (d : Bytes) (n i : Nat) :
    LinkEntry.spec (d.drop n) i = LinkEntry.spec d (n + i) := by
  simp only [LinkEntry.spec, rd32_drop, Nat.add_assoc]

theorem le_take (k : Nat) (c : Bytes) (st : LinkEntriesState) :
    takeIter LinkEntries.next k ⟨c, st⟩ =
      ((List.range (c.length / 16)).map fun i => LinkEntry.spec c (16 * i)).take k := by
  induction k generalizing c with
  | zero => simp [takeIter]
  | succ k ih =>
    by_cases h : 16 ≤ c.length
    · rw [takeIter, le_next c st h]
      simp only
      rw [ih, show c.length / 16 = 1 + (c.drop 16).length / 16 by simp only [List.length_drop]; omega,
        range_add_map]
      simp only [List.range_one, List.map_cons, List.map_nil, List.cons_append, List.nil_append,
        List.take_succ_cons, Nat.mul_zero, le_spec_drop, Nat.mul_add, Nat.mul_one]
    · rw [takeIter, le_next_short c st (by omega), show c.length / 16 = 0 by omega]
      rfl

/-- C46: iterating the link entries of a parsed capability yields exactly the announced entries that
are complete, in order, each from its own 16 bytes. -/
theorem LinkEntries_items (d : Bytes) (r : RootComplexLinkDeclaration)
    (h : RootComplexLinkDeclaration.ofBytes d = .ok r) (k : Nat) :
    takeIter LinkEntries.next k r.link_entries =
      ((List.range (min (announced d) ((d.length - 12) / 16))).map fun i =>
        LinkEntry.spec d (12 + 16 * i)).take k := by
  rw [RootComplexLinkDeclaration_bytes] at h
  split at h
  · cases h
  split at h
  · cases h
  split at h
  · cases h
  split at h
  · cases h
  cases h
  rw [le_take]
  have hl : ((d.drop 12).take (16 * announced d)).length / 16 =
      min (announced d) ((d.length - 12) / 16) := by
    simp only [List.length_take, List.length_drop]; omega
  rw [hl]
  congr 1
  apply List.map_congr_left
  intro i hi
  have := List.mem_range.1 hi
  simp (disch := omega) only [LinkEntry.spec, rd32_take, rd32_drop]
  simp only [Nat.add_assoc]

/-- C46: the state is `Valid` exactly when all announced entries are there. -/
theorem LinkEntries_valid (d : Bytes) (r : RootComplexLinkDeclaration)
    (h : RootComplexLinkDeclaration.ofBytes d = .ok r) :
    r.link_entries.state = .Valid ↔
      ∀ k, announced d ≤ k → (takeIter LinkEntries.next k r.link_entries).length = announced d := by
  have hi := LinkEntries_items d r h
  have hs : r.link_entries.state = .spec (announced d) (d.length - 12) := by
    rw [RootComplexLinkDeclaration_bytes] at h
    split at h
    · cases h
    split at h
    · cases h
    split at h
    · cases h
    split at h
    · cases h
    cases h
    rfl
  simp only [hi, List.length_take, List.length_map, List.length_range, hs, LinkEntriesState.spec]
  constructor
  · intro hv k hk
    have : 16 * announced d ≤ d.length - 12 := by
      revert hv; split
      · intro _; assumption
      · split <;> intro h <;> cases h
    omega
  · intro hv
    have := hv _ (Nat.le_refl _)
    rw [if_pos (by omega)]

/-- A link declaration announcing two entries, with one and a half there. -/
def sample : Bytes :=
  [0x00, 0x02, 0x01, 0x00, 0, 0, 0, 0, 0, 0, 0, 0,
   0x03, 0, 0x05, 0x06, 0, 0, 0, 0, 0x03, 0x80, 0xf0, 0xab, 0x12, 0, 0, 0,
   0x01, 0, 0, 0, 0, 0, 0, 0]

example : (RootComplexLinkDeclaration.ofBytes sample).map' (fun r =>
    (r.link_entries.state, takeIter LinkEntries.next 5 r.link_entries)) =
    .ok (.Invalid, [⟨⟨true, 1, false, 5, 6⟩,
      .ConfigurationSpace 3 0 0 1 7 0x12ab800000⟩]) := by decide +kernel

example : (LinkAddress.new 1 0xabf08003 0x12).toDwords = (0xabf08003, 0x12) :=
  LinkAddress_roundtrip _ _ _

/-! ### C76 -/

theorem ElementType_bits4 {n : Nat} (a b : BitVec n) (lo : Nat) :
    ElementType.spec (fld a lo 4) = ElementType.spec (fld b lo 4) ↔
      ∀ i, i < 4 → a.getLsbD (lo + i) = b.getLsbD (lo + i) :=
  code_eq_iff _ 4 (by decide) (by decide +kernel) a b lo

/-- C76: `ElementSelfDescription` registers decode to the same value only if they are equal. -/
theorem ElementSelfDescription_reads (a b : U32) :
    ElementSelfDescription.ofU32 a = ElementSelfDescription.ofU32 b ↔
      a = b := by
  rw [eq_iff_bits a b]
  reads [ElementSelfDescription_layout, ElementSelfDescription.spec,
    ElementSelfDescription.mk.injEq, ElementType_bits4]

/-- C76: `LinkDescription` registers decode to the same value exactly when they agree in bits 0-2,
16-31. -/
theorem LinkDescription_reads (a b : U32) :
    LinkDescription.ofU32 a = LinkDescription.ofU32 b ↔
      a &&& 0xffff0007#32 = b &&& 0xffff0007#32 := by
  reads [LinkDescription_layout, LinkDescription.spec, LinkDescription.mk.injEq]

/-- A reserved bit makes no difference to `LinkDescription`, a defined one does. -/
example : LinkDescription.ofU32 0x7814e8a2 = LinkDescription.ofU32 0x781468a2 ∧
    LinkDescription.ofU32 0x7814e8a2 ≠ LinkDescription.ofU32 0x7854e8a2 :=
  ⟨(LinkDescription_reads _ _).2 (by decide), fun h => absurd ((LinkDescription_reads _ _).1 h) (by decide)⟩

end Pcics.RootComplexLinkDeclaration
