import Verif.Lemmas.Reads
import Verif.Spec.Cap.MessageSignaledInterrups
import Verif.Lemmas.Tactics
import Verif.Lemmas.Bv
/- Properties of src/capabilities/message_signaled_interrups.rs -/

namespace Pcics.MessageSignaledInterrups
open Spec

/-- C33: every field of message control is at its bit position. -/
theorem MessageControl_layout (w : U16) : MessageControl.ofU16 w = MessageControl.spec w := by
  bits_simp [MessageControl.ofU16, MessageControl.spec]

private theorem cat64 (u x : U32) :
    (u.setWidth 64 <<< 32) ||| x.setWidth 64 = (cat u x : U64) := by bv_bits []

/-- C33: the layout is selected by bits 7 and 8 of message control; decoding fails exactly when that
layout does not fit, with the error of that layout, and otherwise reads every register from its
offset in that layout. -/
theorem MessageSignaledInterrups_bytes (d : Bytes) :
    MessageSignaledInterrups.ofBytes d =
      if 2 ≤ d.length then
        let addr64 := flag (rd16 d 0) 7
        let pvm := flag (rd16 d 0) 8
        if MessageSignaledInterrups.specSize addr64 pvm ≤ d.length then
          .ok (MessageSignaledInterrups.spec d addr64 pvm)
        else .err (MessageSignaledInterrups.specError addr64 pvm)
      else .err .MessageControl := by
  unfold MessageSignaledInterrups.ofBytes
  by_cases h2 : 2 ≤ d.length
  · bytes_len [MessageControl.SIZE, MSI_32BIT_SIZE, MSI_64BIT_SIZE, MSI_32BIT_PVM_SIZE,
      MSI_64BIT_PVM_SIZE, MessageControl_layout]
    have h7 : (MessageControl.spec (rd16 d 0)).a_64_bit_address_capable = flag (rd16 d 0) 7 := rfl
    have h8 : (MessageControl.spec (rd16 d 0)).per_vector_masking_capable = flag (rd16 d 0) 8 := rfl
    rw [h7, h8]
    cases flag (rd16 d 0) 7 <;> cases flag (rd16 d 0) 8 <;>
      simp only [MessageSignaledInterrups.specSize, MessageSignaledInterrups.spec,
        MessageSignaledInterrups.specError, if_true, Bool.false_eq_true, if_false, Nat.add_zero,
        Nat.reduceAdd]
    · by_cases h : 10 ≤ d.length <;> bytes_len []
    · by_cases h : 18 ≤ d.length <;> bytes_len []
    · by_cases h : 14 ≤ d.length <;> bytes_len [cat64]
    · by_cases h : 22 ≤ d.length <;> bytes_len [cat64]
  · bytes_len [MessageControl.SIZE]

example : MessageSignaledInterrups.ofBytes
    [0x85, 0x01, 0x00, 0x00, 0xe0, 0xfe, 1, 0, 0, 0, 0x34, 0x12, 0, 0, 1, 0, 0, 0, 2, 0, 0, 0] =
    .ok {
      message_control := ⟨true, ⟨2⟩, ⟨0⟩, true, true, false, false⟩
      message_address := .Qword 0x1fee00000
      message_data := 0x1234, extended_message_data := 0
      mask_bits := some 1, pending_bits := some 2 } := by decide +kernel

/-- C34: the vector counts of a decoded capability are two to the power of their 3-bit fields, and
computing them never panics. -/
theorem number_of_vectors_pow (d : Bytes) (s : MessageSignaledInterrups)
    (h : MessageSignaledInterrups.ofBytes d = .ok s) :
    (∃ v : U8, (s.message_control.multiple_message_capable.number_of_vectors : Res Unit U8) = .ok v ∧
      v.toNat = 2 ^ (fld (rd16 d 0) 1 3 : U8).toNat) ∧
    (∃ v : U8, (s.message_control.multiple_message_enable.number_of_vectors : Res Unit U8) = .ok v ∧
      v.toNat = 2 ^ (fld (rd16 d 0) 4 3 : U8).toNat) := by
  have hmc : s.message_control = MessageControl.spec (rd16 d 0) := by
    rw [MessageSignaledInterrups_bytes] at h
    dsimp only at h
    split at h
    · split at h
      · simp only [Res.ok.injEq] at h; subst h; rfl
      · simp at h
    · simp at h
  have key : ∀ lo, ∃ v : U8, ((⟨fld (rd16 d 0) lo 3⟩ : MultipleMessage).number_of_vectors
      : Res Unit U8) = .ok v ∧ v.toNat = 2 ^ (fld (rd16 d 0) lo 3 : U8).toNat := by
    intro lo
    have hlt : (fld (rd16 d 0) lo 3 : U8).toNat < 8 := by
      simp only [fld, BitVec.toNat_setWidth, BitVec.extractLsb'_toNat]; omega
    refine ⟨_, if_pos hlt, ?_⟩
    generalize (fld (rd16 d 0) lo 3 : U8).toNat = n at hlt
    match n, hlt with
    | 0, _ => rfl
    | 1, _ => rfl
    | 2, _ => rfl
    | 3, _ => rfl
    | 4, _ => rfl
    | 5, _ => rfl
    | 6, _ => rfl
    | 7, _ => rfl
  rw [hmc]
  exact ⟨key 1, key 4⟩

/-! ### C76 -/

/-- C76: `MessageControl` registers decode to the same value exactly when they agree in bits 0-10.
-/
theorem MessageControl_reads (a b : U16) :
    MessageControl.ofU16 a = MessageControl.ofU16 b ↔
      a &&& 0x07ff#16 = b &&& 0x07ff#16 := by
  reads [MessageControl_layout, MessageControl.spec, MessageControl.mk.injEq,
    MultipleMessage.mk.injEq]

/-- A reserved bit makes no difference to `MessageControl`, a defined one does. -/
example : MessageControl.ofU16 0xb0c1 = MessageControl.ofU16 0x30c1 ∧
    MessageControl.ofU16 0xb0c1 ≠ MessageControl.ofU16 0xb0e1 :=
  ⟨(MessageControl_reads _ _).2 (by decide), fun h => absurd ((MessageControl_reads _ _).1 h) (by decide)⟩

end Pcics.MessageSignaledInterrups
