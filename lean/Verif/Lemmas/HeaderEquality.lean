import Verif.Lemmas.BarEquality
import Verif.Props.Bar
import Verif.Props.Header
import Verif.Model.Equality
import Verif.Spec.HeaderEquality
/- Lemmas on equal headers -/

namespace Pcics.Header
open Spec

theorem rd16_eq_iff (d d' : Bytes) (i j : Nat) :
    rd16 d i = rd16 d' j ↔ byteAt d i = byteAt d' j ∧ byteAt d (i + 1) = byteAt d' (j + 1) := by
  refine ⟨fun h => ?_, fun h => by rw [rd16, rd16, h.1, h.2]⟩
  have := congrArg BitVec.toNat h
  simp only [rd16, BitVec.toNat_ofNat] at this
  have h1 := (byteAt d i).isLt
  have h2 := (byteAt d (i + 1)).isLt
  have h3 := (byteAt d' j).isLt
  have h4 := (byteAt d' (j + 1)).isLt
  exact ⟨BitVec.eq_of_toNat_eq (by omega), BitVec.eq_of_toNat_eq (by omega)⟩

theorem rd32_eq_iff (d d' : Bytes) (i : Nat) :
    rd32 d i = rd32 d' i ↔ byteAt d i = byteAt d' i ∧ byteAt d (i + 1) = byteAt d' (i + 1) ∧
      byteAt d (i + 2) = byteAt d' (i + 2) ∧ byteAt d (i + 3) = byteAt d' (i + 3) := by
  refine ⟨fun h => ?_, fun h => by rw [rd32, rd32, h.1, h.2.1, h.2.2.1, h.2.2.2]⟩
  have := congrArg BitVec.toNat h
  simp only [rd32, BitVec.toNat_ofNat] at this
  have h1 := (byteAt d i).isLt
  have h2 := (byteAt d (i + 1)).isLt
  have h3 := (byteAt d (i + 2)).isLt
  have h4 := (byteAt d (i + 3)).isLt
  have h5 := (byteAt d' i).isLt
  have h6 := (byteAt d' (i + 1)).isLt
  have h7 := (byteAt d' (i + 2)).isLt
  have h8 := (byteAt d' (i + 3)).isLt
  exact ⟨BitVec.eq_of_toNat_eq (by omega), BitVec.eq_of_toNat_eq (by omega),
    BitVec.eq_of_toNat_eq (by omega), BitVec.eq_of_toNat_eq (by omega)⟩

theorem sameAt_nil (d d' : Bytes) (n : Nat) : sameAt d d' n n ↔ True :=
  ⟨fun _ => trivial, fun _ i h2 h1 => by omega⟩

theorem sameAt_cons (d d' : Bytes) (lo hi : Nat) (h : lo < hi) :
    sameAt d d' lo hi ↔ byteAt d lo = byteAt d' lo ∧ sameAt d d' (lo + 1) hi := by
  constructor
  · intro hs; exact ⟨hs lo h (by omega), fun i h2 h1 => hs i h2 (by omega)⟩
  · rintro ⟨h0, hs⟩ i h2 h1
    by_cases he : i = lo
    · subst he; exact h0
    · exact hs i h2 (by omega)

theorem bars_eq_iff (d d' : Bytes) (n : Nat) :
    BaseAddresses.eq (.new (rd32s d 0x10 n)) (.new (rd32s d' 0x10 n)) = true ↔
      sameBars d d' n := by
  have hl : ∀ x : Bytes, (rd32s x 0x10 n).length = n := by intro x; simp [rd32s]
  rw [bar_eq_iff, barsOf_eq_iff _ _ (by rw [hl, hl]), barAt_eq_iff _ _ (by rw [hl, hl]) _ rfl, hl,
    sameBars]

theorem eq_iff_parts {n s : Nat} (m k l : Nat) (b b' : BitVec n) (hl : k ≤ 8) (h : k + l = n)
    (hm : l + s ≤ m) :
    b = b' ↔ (fld b 0 k : U8) = fld b' 0 k ∧
      (fld b k l : BitVec m) <<< s = (fld b' k l : BitVec m) <<< s := by
  rw [fld_eq_iff _ _ _ _ hl, fld_shl_eq_iff _ _ _ _ _ hm, eq_iff_bits]
  constructor
  · intro hb
    exact ⟨fun i hi => hb _ (by omega), fun i hi => hb _ (by omega)⟩
  · rintro ⟨h1, h2⟩ i hi
    by_cases hk : i < k
    · simpa [-BitVec.getLsbD_eq_getElem] using h1 i hk
    · have := h2 (i - k) (by omega)
      rwa [show k + (i - k) = i by omega] at this

theorem BridgeIo_spec_eq_iff (b l b' l' : U8) (bu lu bu' lu' : U16) :
    BridgeIoAddressRange.spec b l bu lu = BridgeIoAddressRange.spec b' l' bu' lu' ↔
      b = b' ∧ l = l' ∧ ((fld b 0 4 : U8) = 1 ∧ (fld l 0 4 : U8) = 1 → bu = bu' ∧ lu = lu') := by
  have hp : ∀ x y : U8, x = y ↔ (fld x 0 4 : U8) = fld y 0 4 ∧
      (fld x 4 4 : U16) <<< 12 = (fld y 4 4 : U16) <<< 12 := fun x y =>
    eq_iff_parts 16 4 4 x y (by omega) (by omega) (by omega)
  constructor
  · intro h
    unfold BridgeIoAddressRange.spec at h
    split_ifs at h <;>
      simp only [BridgeIoAddressRange.IoAddr16.injEq, BridgeIoAddressRange.IoAddr32.injEq,
        BridgeIoAddressRange.Reserved.injEq, BridgeIoAddressRange.Malformed.injEq,
        cat_eq_iff _ _ _ _ (by omega : 16 + 16 ≤ 32), reduceCtorEq] at h <;>
      first
      | (rename_i c c'; obtain ⟨rfl, rfl⟩ := c; obtain ⟨rfl, rfl⟩ := c'
         exact ⟨rfl, rfl, fun h => absurd h.1 (by decide)⟩)
      | (rw [hp b b', hp l l']; clear hp; simp_all)
      | (rw [hp b b', hp l l']; clear hp; grind)
  · rintro ⟨rfl, rfl, hu⟩
    unfold BridgeIoAddressRange.spec
    split_ifs with c1 c2 c3 c4
    · rfl
    · rfl
    · rw [(hu c3).1, (hu c3).2]
    · rfl
    · rfl

theorem BridgePref_spec_eq_iff (b l b' l' : U16) (bu lu bu' lu' : U32) :
    BridgePrefetchableMemory.spec b l bu lu = BridgePrefetchableMemory.spec b' l' bu' lu' ↔
      b = b' ∧ l = l' ∧ ((fld b 0 4 : U8) = 1 ∧ (fld l 0 4 : U8) = 1 → bu = bu' ∧ lu = lu') := by
  have hp : ∀ x y : U16, x = y ↔ (fld x 0 4 : U8) = fld y 0 4 ∧
      (fld x 4 12 : U32) <<< 20 = (fld y 4 12 : U32) <<< 20 := fun x y =>
    eq_iff_parts 32 4 12 x y (by omega) (by omega) (by omega)
  constructor
  · intro h
    unfold BridgePrefetchableMemory.spec at h
    split_ifs at h <;>
      simp only [BridgePrefetchableMemory.MemAddr32.injEq, BridgePrefetchableMemory.MemAddr64.injEq,
        BridgePrefetchableMemory.Reserved.injEq, BridgePrefetchableMemory.Malformed.injEq,
        cat_eq_iff _ _ _ _ (by omega : 32 + 32 ≤ 64), reduceCtorEq] at h <;>
      first
      | (rename_i c c'; obtain ⟨rfl, rfl⟩ := c; obtain ⟨rfl, rfl⟩ := c'
         exact ⟨rfl, rfl, fun h => absurd h.1 (by decide)⟩)
      | (rw [hp b b', hp l l']; clear hp; simp_all)
      | (rw [hp b b', hp l l']; clear hp; grind)
  · rintro ⟨rfl, rfl, hu⟩
    unfold BridgePrefetchableMemory.spec
    split_ifs with c1 c2 c3 c4
    · rfl
    · rfl
    · rw [(hu c3).1, (hu c3).2]
    · rfl
    · rfl

theorem mask_low2 (x y : U16) :
    x &&& 0xfffc#16 = y &&& 0xfffc#16 ↔ (fld x 2 14 : U16) <<< 2 = (fld y 2 14 : U16) <<< 2 := by
  rw [mask_eq_iff, fld_shl_eq_iff _ _ _ _ _ (by omega)]
  constructor
  · intro h i hi
    have : ∀ j, j < 14 → (0xfffc#16).getLsbD (2 + j) = true := by decide
    exact h _ (by omega) (this i hi)
  · intro h i hi hf
    match i, hi with
    | 0, _ => simp at hf
    | 1, _ => simp at hf
    | i + 2, hi => rw [Nat.add_comm]; exact h i (by omega)

theorem CardbusIo_spec_eq_iff (b l b' l' bu lu bu' lu' : U16) :
    IoAccessAddressRange.spec b bu l lu = IoAccessAddressRange.spec b' bu' l' lu' ↔
      b = b' ∧ l &&& 0xfffc#16 = l' &&& 0xfffc#16 ∧
        ((fld b 0 2 : U8) ≠ 0 → bu = bu' ∧ lu = lu') := by
  have hp : ∀ x y : U16, x = y ↔ (fld x 0 2 : U8) = fld y 0 2 ∧
      (fld x 2 14 : U16) <<< 2 = (fld y 2 14 : U16) <<< 2 := fun x y =>
    eq_iff_parts 16 2 14 x y (by omega) (by omega) (by omega)
  rw [mask_low2, hp b b']
  simp only [IoAccessAddressRange.spec, pick]
  generalize (fld b 0 2 : U8) = c
  generalize (fld b' 0 2 : U8) = c'
  generalize (fld b 2 14 : U16) <<< 2 = x
  generalize (fld b' 2 14 : U16) <<< 2 = x'
  generalize (fld l 2 14 : U16) <<< 2 = y
  generalize (fld l' 2 14 : U16) <<< 2 = y'
  constructor
  · intro h
    split_ifs at h <;>
      simp only [IoAccessAddressRange.Addr16Bit.injEq, IoAccessAddressRange.Addr32Bit.injEq,
        IoAccessAddressRange.Unknown.injEq, cat_eq_iff _ _ _ _ (by omega : 16 + 16 ≤ 32),
        reduceCtorEq] at h <;> clear hp <;> first | (simp_all; done) | grind
  · rintro ⟨⟨rfl, rfl⟩, rfl, hu⟩
    split_ifs with c1 c2
    · rfl
    · rw [(hu c1).1, (hu c1).2]
    · rw [(hu c1).1, (hu c1).2]

theorem Command_spec_eq_iff (a b : U16) : Command.spec a = Command.spec b ↔ a = b := by
  rw [← Command_layout, ← Command_layout, Command_reads]

theorem Status_spec_eq_iff (a b : U16) : Status.spec a = Status.spec b ↔ a = b := by
  have := Status_reads (ε := Unit) a b
  rw [Status_layout, Status_layout, Res.ok.injEq] at this
  exact this

theorem BridgeControl_spec_eq_iff (a b : U16) :
    BridgeControl.spec a = BridgeControl.spec b ↔ a &&& 0x0fff#16 = b &&& 0x0fff#16 := by
  rw [← BridgeControl_layout, ← BridgeControl_layout, BridgeControl_reads]

theorem CardbusBridgeControl_spec_eq_iff (a b : U16) :
    CardbusBridgeControl.spec a = CardbusBridgeControl.spec b ↔
      a &&& 0x07ef#16 = b &&& 0x07ef#16 := by
  rw [← CardbusBridgeControl_layout, ← CardbusBridgeControl_layout, CardbusBridgeControl_reads]

theorem Bist_spec_eq_iff (a b : U8) :
    BuiltInSelfTest.spec a = BuiltInSelfTest.spec b ↔ a &&& 0xcf#8 = b &&& 0xcf#8 := by
  rw [← BuiltInSelfTest_layout, ← BuiltInSelfTest_layout, BuiltInSelfTest_reads]

theorem Rom_spec_eq_iff (a b : U32) : ExpansionRom.spec a = ExpansionRom.spec b ↔ a = b := by
  rw [← ExpansionRom_layout, ← ExpansionRom_layout, ExpansionRom_reads]

theorem Pin_spec_eq_iff (a b : U8) : InterruptPin.spec a = InterruptPin.spec b ↔ a = b := by
  refine ⟨fun h => ?_, fun h => by rw [h]⟩
  have key : ∀ x : U8, (InterruptPin.spec x).toU8 = x := by decide +kernel
  rw [← key a, ← key b, h]

theorem pointer_mask (a b : U8) :
    (fld a 2 6 : U8) <<< 2 = (fld b 2 6 : U8) <<< 2 ↔ a &&& 0xfc#8 = b &&& 0xfc#8 := by
  have key : ∀ x : U8, (fld x 2 6 : U8) <<< 2 = x &&& 0xfc#8 := by decide +kernel
  rw [key, key]

theorem type_byte (a b : U8) :
    a = b ↔ flag a 7 = flag b 7 ∧ (fld a 0 7 : U8) = fld b 0 7 := by
  refine ⟨fun h => by rw [h]; exact ⟨rfl, rfl⟩, fun h => ?_⟩
  have key : ∀ x : U8, x = (fld x 0 7 : U8) ||| (if flag x 7 then 0x80 else 0) := by decide +kernel
  rw [key a, key b, h.1, h.2]

theorem low_nibble (d : Bytes) (i : Nat) :
    (fld (rd16 d i) 0 4 : U8) = fld (byteAt d i) 0 4 := by
  apply BitVec.eq_of_toNat_eq
  have h1 := (byteAt d i).isLt
  have h2 := (byteAt d (i + 1)).isLt
  simp [fld, rd16]
  omega

/-- Unfolds ranges of equal bytes with literal bounds. -/
macro "same_bytes" : tactic => `(tactic|
  simp only [sameAt_cons, sameAt_nil, rd16_eq_iff, rd32_eq_iff, Nat.reduceAdd, Nat.reduceLT,
    Nat.lt_add_one, Nat.zero_add, and_assoc, and_true])

theorem Normal_spec_eq_iff (d d' : Bytes) :
    (Normal.spec d).eq (Normal.spec d') = true ↔
      sameBars d d' 6 ∧ sameAt d d' 0x28 0x34 ∧ sameAt d d' 0x3e 0x40 := by
  have := bars_eq_iff d d' 6
  simp only [rd32s, List.range, List.range.loop, List.map_cons, List.map_nil, Nat.reduceMul,
    Nat.reduceAdd] at this
  simp only [Normal.eq, Normal.spec, Bool.and_eq_true, beq_iff_eq, Rom_spec_eq_iff, this]
  same_bytes

theorem Bridge_spec_eq_iff (d d' : Bytes) :
    (Bridge.spec d).eq (Bridge.spec d') = true ↔
      sameBars d d' 2 ∧ sameAt d d' 0x18 0x28 ∧
      ((fld (byteAt d 0x1c) 0 4 : U8) = 1 ∧ (fld (byteAt d 0x1d) 0 4 : U8) = 1 →
        sameAt d d' 0x30 0x34) ∧
      ((fld (byteAt d 0x24) 0 4 : U8) = 1 ∧ (fld (byteAt d 0x26) 0 4 : U8) = 1 →
        sameAt d d' 0x28 0x30) ∧ sameAt d d' 0x38 0x3c ∧
      rd16 d 0x3e &&& 0x0fff#16 = rd16 d' 0x3e &&& 0x0fff#16 := by
  have := bars_eq_iff d d' 2
  simp only [rd32s, List.range, List.range.loop, List.map_cons, List.map_nil, Nat.reduceMul,
    Nat.reduceAdd] at this
  simp only [Bridge.eq, Bridge.spec, Bool.and_eq_true, beq_iff_eq, Rom_spec_eq_iff, this,
    BridgeIo_spec_eq_iff, BridgePref_spec_eq_iff, Status_spec_eq_iff, BridgeControl_spec_eq_iff,
    low_nibble]
  generalize rd16 d 0x3e &&& 0x0fff#16 = x
  generalize rd16 d' 0x3e &&& 0x0fff#16 = y
  same_bytes
  constructor <;> (intro h; simp only [h, and_self, imp_self, true_and]; simp_all)

theorem Cardbus_spec_eq_iff (d d' : Bytes) :
    (Cardbus.spec d).eq (Cardbus.spec d') = true ↔
      sameBars d d' 1 ∧ sameAt d d' 0x16 0x2c ∧
      sameCardbusWindow d d' 0x2c ∧ sameCardbusWindow d d' 0x34 ∧
      rd16 d 0x3e &&& 0x07ef#16 = rd16 d' 0x3e &&& 0x07ef#16 := by
  have := bars_eq_iff d d' 1
  simp only [rd32s, List.range, List.range.loop, List.map_cons, List.map_nil, Nat.reduceMul,
    Nat.reduceAdd] at this
  simp only [Cardbus.eq, Cardbus.spec, Bool.and_eq_true, beq_iff_eq, this,
    CardbusIo_spec_eq_iff, Status_spec_eq_iff, CardbusBridgeControl_spec_eq_iff,
    sameCardbusWindow, Nat.reduceAdd]
  generalize rd16 d 0x3e &&& 0x07ef#16 = x
  generalize rd16 d' 0x3e &&& 0x07ef#16 = y
  generalize sameBars d d' 1 = s
  same_bytes

theorem HeaderType_spec_eq_iff (d d' : Bytes) :
    (HeaderType.spec d).eq (HeaderType.spec d') = true ↔
      headerTypeCode d = headerTypeCode d' ∧
      (headerTypeCode d = 0 → (Normal.spec d).eq (Normal.spec d') = true) ∧
      (headerTypeCode d = 1 → (Bridge.spec d).eq (Bridge.spec d') = true) ∧
      (headerTypeCode d = 2 → (Cardbus.spec d).eq (Cardbus.spec d') = true) := by
  simp only [HeaderType.spec, pick, BitVec.ofNat_eq_ofNat]
  generalize headerTypeCode d = c
  generalize headerTypeCode d' = c'
  by_cases e0 : c = 0#8
  · subst e0
    by_cases e : c' = 0#8
    · subst e; simp [HeaderType.eq]
    · simp only [e, if_true, if_false, Ne.symm e, false_and, iff_false]
      split_ifs <;> first | (simp [HeaderType.eq]; done) | contradiction
  by_cases e1 : c = 1#8
  · subst e1
    by_cases e : c' = 1#8
    · subst e; simp [HeaderType.eq]
    · simp only [e, e0, if_true, if_false, Ne.symm e, false_and, iff_false]
      split_ifs <;> first | (simp [HeaderType.eq]; done) | contradiction
  by_cases e2 : c = 2#8
  · subst e2
    by_cases e : c' = 2#8
    · subst e; simp [HeaderType.eq]
    · simp only [e, e0, e1, if_true, if_false, Ne.symm e, false_and, iff_false]
      split_ifs <;> first | (simp [HeaderType.eq]; done) | contradiction
  simp only [e0, e1, e2, if_false, false_imp_iff, and_true]
  split_ifs with f0 f1 f2
  · subst f0; simp [HeaderType.eq, e0]
  · subst f1; simp [HeaderType.eq, e1]
  · subst f2; simp [HeaderType.eq, e2]
  · simp [HeaderType.eq]

end Pcics.Header
