import Verif.Lemmas.HeaderEquality
import Verif.Spec.Iter
/- Properties of comparing headers (C58, C95) -/

namespace Pcics.Header
open Spec

/-- C58: what comparing base addresses means for the registers: two sets of as many registers are
equal exactly when slot by slot the registers are, apart from the reserved bit 1 of I/O BARs and the
address of a 64-bit BAR in the last slot. -/
theorem bar_eq_registers (a b : List U32) (hl : a.length = b.length) :
    BaseAddresses.eq (.new a) (.new b) = true ↔
      ∀ k, k < a.length → compared a k = compared b k := by
  rw [bar_eq_iff, barsOf_eq_iff a b hl, barAt_eq_iff a b hl _ rfl]

example : compared [0xc000000c, 3, 3] 0 = 0xc000000c ∧ compared [0xc000000c, 3, 3] 1 = 3 ∧
    compared [0xc000000c, 3, 3] 2 = 1 ∧ compared [0x12340004] 0 = 4 := by decide

theorem next_progress (s : BaseAddresses) (b : BaseAddress) (h : s.next.1 = some b) :
    s.next.2.data = s.data ∧ s.region < s.next.2.region ∧ s.region < s.data.length := by
  rcases bar_next s with ⟨r, w, h1, h2, _, _, _, h6, h7⟩ | ⟨_, h2, _⟩
  · have := (List.getElem?_eq_some_iff.1 h2).1
    refine ⟨h6, ?_, by omega⟩
    rw [h7]; split <;> omega
  · rw [h2] at h; cases h

theorem collect_fuel (n : Nat) : ∀ (s : BaseAddresses) (f f' : Nat),
    s.data.length - s.region = n → n < f → n < f' →
    BaseAddresses.collect f s = BaseAddresses.collect f' s := by
  induction n using Nat.strongRecOn with
  | _ n ih =>
    intro s f f' hn hf hf'
    obtain ⟨f, rfl⟩ : ∃ k, f = k + 1 := ⟨f - 1, by omega⟩
    obtain ⟨f', rfl⟩ : ∃ k, f' = k + 1 := ⟨f' - 1, by omega⟩
    rw [BaseAddresses.collect, BaseAddresses.collect]
    cases h : s.next with
    | mk o s' =>
      cases o with
      | none => rfl
      | some b =>
        have := next_progress s b (by rw [h])
        rw [h] at this
        simp only at this ⊢
        rw [ih (s'.data.length - s'.region) (by rw [this.1]; omega) s' f f' rfl
          (by rw [this.1]; omega) (by rw [this.1]; omega)]

theorem collect_after (m : Nat) : ∀ (s : BaseAddresses) (f : Nat), s.data.length < f →
    (callsAfter BaseAddresses.next m s).data = s.data ∧
    BaseAddresses.collect f (callsAfter BaseAddresses.next m s) =
      (BaseAddresses.collect f s).drop m := by
  induction m with
  | zero => intro s f _; exact ⟨rfl, rfl⟩
  | succ m ih =>
    intro s f hf
    rw [callsAfter]
    have hd : s.next.2.data = s.data := by
      rcases bar_next s with ⟨_, _, _, _, _, _, _, h, _⟩ | ⟨_, _, h, _⟩ <;> exact h
    obtain ⟨i1, i2⟩ := ih s.next.2 f (by rw [hd]; exact hf)
    refine ⟨i1.trans hd, i2.trans ?_⟩
    obtain ⟨f, rfl⟩ : ∃ k, f = k + 1 := ⟨f - 1, by omega⟩
    conv_rhs => rw [BaseAddresses.collect]
    cases h : s.next with
    | mk o s' =>
      cases o with
      | none =>
        have := bar_exhausted s (by rw [h])
        rw [h] at this
        simp only [BaseAddresses.collect, this, List.drop_nil]
      | some b =>
        have := next_progress s b (by rw [h])
        rw [h] at this
        simp only [List.drop_succ_cons] at this ⊢
        rw [collect_fuel _ s' (f + 1) f rfl (by rw [this.1]; omega) (by rw [this.1]; omega)]

/-- C58: the same in the middle of iterations: what is compared is what is left. -/
theorem bar_eq_iff_left (a b : List U32) (m n : Nat) :
    BaseAddresses.eq (callsAfter BaseAddresses.next m (.new a))
        (callsAfter BaseAddresses.next n (.new b)) = true ↔
      (barsOf a).drop m = (barsOf b).drop n := by
  have h1 := collect_after m (.new a) (a.length + 1) (Nat.lt_succ_self _)
  have h2 := collect_after n (.new b) (b.length + 1) (Nat.lt_succ_self _)
  rw [BaseAddresses.eq, decide_eq_true_eq, h1.1, h2.1]
  rw [show (BaseAddresses.new a).data = a from rfl, show (BaseAddresses.new b).data = b from rfl,
    h1.2, h2.2, bar_iteration a _ (by omega), bar_iteration b _ (by omega)]

example : (barsOf sampleBars).drop 2 = (barsOf (sampleBars.set 3 0x8001)).drop 2 ∧
    (barsOf sampleBars).drop 1 ≠ (barsOf (sampleBars.set 3 0x8001)).drop 1 := by decide

theorem callsItems_collect (k : Nat) : ∀ s : BaseAddresses,
    callsItems BaseAddresses.next k s = (BaseAddresses.collect (s.data.length + 1) s).take k := by
  induction k with
  | zero => intro s; simp [callsItems]
  | succ k ih =>
    intro s
    rw [callsItems, ih]
    conv_rhs => rw [BaseAddresses.collect]
    cases h : s.next with
    | mk o s' =>
      cases o with
      | none =>
        have := bar_exhausted s (by rw [h])
        rw [h] at this
        simp [BaseAddresses.collect, this]
      | some b =>
        have := next_progress s b (by rw [h])
        rw [h] at this
        simp only [Option.toList_some, List.cons_append, List.nil_append, List.take_succ_cons] at this ⊢
        rw [collect_fuel _ s' (s'.data.length + 1) s.data.length rfl (by omega)
          (by rw [this.1]; omega)]

/-- C58: base addresses, however they came about, compare equal exactly when they return the same. -/
theorem bar_eq_any (a b : BaseAddresses) : a.eq b = true ↔
    ∀ k, callsItems BaseAddresses.next k a = callsItems BaseAddresses.next k b := by
  simp only [callsItems_collect, BaseAddresses.eq, decide_eq_true_eq]
  refine ⟨fun h k => by rw [h], fun h => ?_⟩
  have := h ((BaseAddresses.collect (a.data.length + 1) a).length +
    (BaseAddresses.collect (b.data.length + 1) b).length)
  rwa [List.take_of_length_le (by omega), List.take_of_length_le (by omega)] at this

example : callsItems BaseAddresses.next 3 ⟨[0x8001, 0, 0x9001], 1⟩ =
    callsItems BaseAddresses.next 3 ⟨[0, 0, 0x9003, 0], 0⟩ := by decide +kernel

/-- C95: headers, however they came about, compare equal exactly when all fields but the base
addresses are the same and the base addresses return the same. -/
theorem header_eq_any (a b : Header) : a.eq b = true ↔
    { a with header_type := a.header_type.withoutBars } =
      { b with header_type := b.header_type.withoutBars } ∧
    ∀ k, callsItems BaseAddresses.next k a.header_type.bars =
      callsItems BaseAddresses.next k b.header_type.bars := by
  have ht : a.header_type.eq b.header_type = true ↔
      a.header_type.withoutBars = b.header_type.withoutBars ∧
      a.header_type.bars.eq b.header_type.bars = true := by
    have hr : (BaseAddresses.new []).eq (.new []) = true := by rw [bar_eq_any]; intro _; rfl
    cases a.header_type <;> cases b.header_type <;>
      simp only [HeaderType.eq, HeaderType.withoutBars, HeaderType.bars, Normal.eq, Bridge.eq,
        Cardbus.eq, Bool.and_eq_true, beq_iff_eq, HeaderType.Normal.injEq, HeaderType.Bridge.injEq,
        HeaderType.Cardbus.injEq, HeaderType.Reserved.injEq, Normal.mk.injEq, Bridge.mk.injEq,
        Cardbus.mk.injEq, true_and, reduceCtorEq, false_and, Bool.false_eq_true, hr, and_true]
    all_goals
      constructor <;> (intro h; simp only [h, and_self])
  rw [← bar_eq_any]
  simp only [Header.eq, Bool.and_eq_true, beq_iff_eq, ht, Header.mk.injEq]
  constructor <;> (intro h; simp only [h, and_self])

/-- Subsystem ids, which no decoded CardBus header has, count. -/
example : ∃ a b : Header, a.header_type.bars = b.header_type.bars ∧ a.eq b = false ∧
    (∃ v, a.header_type = .Cardbus v ∧
      b = { a with header_type := .Cardbus { v with subsystem_vendor_id := some 1 } }) := by
  refine ⟨.spec (sampleBridge.set 0xe 2), _, ?_, ?_, _, rfl, rfl⟩ <;> decide +kernel

/-- C95: headers compare equal exactly when the registers they were decoded from are the same, apart
from bits no field is decoded from and from what comparing base addresses ignores. -/
theorem header_eq_iff (d d' : Bytes) (h h' : Header) (hd : Header.ofBytes d = .ok h)
    (hd' : Header.ofBytes d' = .ok h') : h.eq h' = true ↔ sameHeader d d' := by
  rw [header_accepts_iff] at hd hd'
  split at hd
  · split at hd'
    · cases hd; cases hd'
      have hb := type_byte (byteAt d 0xe) (byteAt d' 0xe)
      simp only [Header.eq, Header.spec, Bool.and_eq_true, beq_iff_eq, HeaderType_spec_eq_iff,
        Normal_spec_eq_iff, Bridge_spec_eq_iff, Cardbus_spec_eq_iff, Command_spec_eq_iff,
        Status_spec_eq_iff, Bist_spec_eq_iff, Pin_spec_eq_iff, pointer_mask, capPointerByte,
        sameHeader, sameNormal, sameBridge, sameCardbus, ClassCode.mk.injEq]
      rw [show headerTypeCode d = fld (byteAt d 0xe) 0 7 from rfl,
        show headerTypeCode d' = fld (byteAt d' 0xe) 0 7 from rfl]
      generalize rd16 d 0x3e &&& 0x0fff#16 = x1
      generalize rd16 d' 0x3e &&& 0x0fff#16 = y1
      generalize rd16 d 0x3e &&& 0x07ef#16 = x2
      generalize rd16 d' 0x3e &&& 0x07ef#16 = y2
      generalize byteAt d 0xf &&& 0xcf#8 = x3
      generalize byteAt d' 0xf &&& 0xcf#8 = y3
      generalize sameBars d d' 6 = b6
      generalize sameBars d d' 2 = b2
      generalize sameBars d d' 1 = b1
      generalize sameCardbusWindow d d' 0x2c = w1
      generalize sameCardbusWindow d d' 0x34 = w2
      generalize ((fld (byteAt d 0x1c) 0 4 : U8) = 1 ∧ (fld (byteAt d 0x1d) 0 4 : U8) = 1 →
        sameAt d d' 0x30 0x34) = q1
      generalize ((fld (byteAt d 0x24) 0 4 : U8) = 1 ∧ (fld (byteAt d 0x26) 0 4 : U8) = 1 →
        sameAt d d' 0x28 0x30) = q2
      same_bytes
      rw [hb]
      generalize (fld (byteAt d 0xe) 0 7 : U8) = c
      generalize (fld (byteAt d' 0xe) 0 7 : U8) = c'
      by_cases hc : c = c'
      · subst hc
        by_cases e0 : c = 0#8
        · subst e0
          simp [pick]
          intros
          constructor <;> (intro h; simp only [h, and_self])
        by_cases e1 : c = 1#8
        · subst e1
          simp [pick]
          intros
          constructor <;> (intro h; simp only [h, and_self])
        by_cases e2 : c = 2#8
        · subst e2
          simp [pick]
          intros
          constructor <;> (intro h; simp only [h, and_self])
        · simp [pick, e0, e1, e2]
      · simp only [hc, false_and, and_false]
    · cases hd'
  · cases hd

instance (d d' : Bytes) (lo hi : Nat) : Decidable (sameAt d d' lo hi) := by unfold sameAt; infer_instance
instance (d d' : Bytes) (n : Nat) : Decidable (sameBars d d' n) := by unfold sameBars; infer_instance
instance (d d' : Bytes) : Decidable (sameNormal d d') := by unfold sameNormal; infer_instance
instance (d d' : Bytes) : Decidable (sameBridge d d') := by unfold sameBridge; infer_instance
instance (d d' : Bytes) (lo : Nat) : Decidable (sameCardbusWindow d d' lo) := by unfold sameCardbusWindow; infer_instance
instance (d d' : Bytes) : Decidable (sameCardbus d d') := by unfold sameCardbus; infer_instance
instance (d d' : Bytes) : Decidable (sameHeader d d') := by unfold sameHeader; infer_instance

/-- A type 0 header that compares equal although a reserved bit of every kind is different: BIST, an
I/O BAR, the capabilities pointer, the reserved bytes 0x35 to 0x3b. -/
def sampleSame : Bytes :=
  (((sampleNormal.set 0x0f 0x30).set 0x10 0x03).set 0x34 0x40).set 0x38 0xff

example : ∃ h h', Header.ofBytes sampleNormal = .ok h ∧ Header.ofBytes sampleSame = .ok h' ∧
    sameHeader sampleNormal sampleSame ∧ h.eq h' = true := by
  have hs : sameHeader sampleNormal sampleSame := by
    decide +kernel
  have h1 : Header.ofBytes sampleNormal = .ok (Header.spec sampleNormal) := by
    rw [header_accepts_iff, if_pos (by decide)]
  have h2 : Header.ofBytes sampleSame = .ok (Header.spec sampleSame) := by
    rw [header_accepts_iff, if_pos (by decide)]
  exact ⟨_, _, h1, h2, hs, (header_eq_iff _ _ _ _ h1 h2).2 hs⟩

/-- A byte of the window is enough to tell two bridges apart, unless its ends hide it. -/
example : ¬ sameHeader sampleBridge (sampleBridge.set 0x33 1) ∧
    sameHeader (sampleBridge.set 0x1c 0x30) ((sampleBridge.set 0x1c 0x30).set 0x33 1) := by
  decide +kernel

theorem HeaderType_eq_symm (a b : HeaderType) (h : a.eq b = true) : b.eq a = true := by
  cases a <;> cases b <;> simp only [HeaderType.eq, Bool.false_eq_true] at h ⊢ <;>
    simp only [Normal.eq, Bridge.eq, Cardbus.eq, BaseAddresses.eq, Bool.and_eq_true, beq_iff_eq,
      decide_eq_true_eq] at h ⊢ <;> simp only [h, and_self]

theorem HeaderType_eq_trans (a b c : HeaderType) (h : a.eq b = true) (h' : b.eq c = true) :
    a.eq c = true := by
  cases a <;> cases b <;> simp only [HeaderType.eq, Bool.false_eq_true] at h <;> cases c <;>
    simp only [HeaderType.eq, Bool.false_eq_true] at h' ⊢ <;>
    simp only [Normal.eq, Bridge.eq, Cardbus.eq, BaseAddresses.eq, Bool.and_eq_true, beq_iff_eq,
      decide_eq_true_eq] at h h' ⊢ <;> simp only [h, h', and_self]

/-- C95: comparing headers, however they came about, is an equivalence (the code declares `Eq`). -/
theorem header_eq_equivalence (a b c : Header) :
    a.eq a = true ∧ (a.eq b = true → b.eq a = true) ∧
      (a.eq b = true → b.eq c = true → a.eq c = true) := by
  refine ⟨?_, ?_, ?_⟩
  · have : a.header_type.eq a.header_type = true := by
      cases a.header_type <;>
        simp [HeaderType.eq, Normal.eq, Bridge.eq, Cardbus.eq, BaseAddresses.eq]
    simp [Header.eq, this]
  · intro h
    simp only [Header.eq, Bool.and_eq_true, beq_iff_eq] at h ⊢
    have := HeaderType_eq_symm _ _ h.1.1.1.1.2
    simp only [h, this, and_self]
  · intro h h'
    simp only [Header.eq, Bool.and_eq_true, beq_iff_eq] at h h' ⊢
    have := HeaderType_eq_trans _ _ _ h.1.1.1.1.2 h'.1.1.1.1.2
    simp only [h, h', this, and_self]

end Pcics.Header
