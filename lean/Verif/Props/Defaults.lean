import Verif.Model.Defaults
import Verif.Lemmas.Bv
import Verif.Props.Cap.MessageSignaledInterrups
/- C74: default values are what all-zero registers decode to. -/

namespace Pcics.Defaults

open Spec Header Hypertransport MessageSignaledInterrups

/-- C74: the defaults of the header types are the decodings of zero registers, so a default value
encodes back to zero bits. -/
theorem header_defaults :
    BuiltInSelfTest.ofU8 0 = .default ∧ InterruptPin.ofU8 0 = .default ∧
    IoAccessAddressRange.ofU16s 0 0 0 0 = .default ∧ ExpansionRom.ofU32 0 = .default ∧
    CardbusBridgeControl.ofU16 0 = .default ∧ Command.ofU16 0 = .default ∧
    (ClassCode.ofBytes [0, 0, 0] : Res Empty ClassCode) = .ok .default ∧
    BridgeControl.ofU16 0 = .default := by decide +kernel

/-- C74: the defaults of the link width and frequency are the decodings of zero. -/
theorem hypertransport_defaults :
    LinkWidth.ofU8 0 = .default ∧ LinkFrequency.new false 0 = .default := by decide +kernel

theorem fld_eq_zero_iff {n m : Nat} (w : BitVec n) (lo len : Nat) :
    (fld w lo len : BitVec m) = 0 ↔ ∀ i < min len m, w.getLsbD (lo + i) = false := by
  constructor
  · intro h i hi
    have h2 := congrArg (·.getLsbD i) h
    have h3 : i < len := by omega
    have h4 : i < m := by omega
    simpa [-BitVec.getLsbD_eq_getElem, getLsbD_fld, h3, h4] using h2
  · intro h
    apply BitVec.eq_of_getLsbD_eq
    intro i hi
    by_cases hl : i < len
    · simp [-BitVec.getLsbD_eq_getElem, getLsbD_fld, h i (by omega)]
    · simp [-BitVec.getLsbD_eq_getElem, getLsbD_fld, hl]

theorem control_default_iff (w : U16) :
    MessageControl.spec w = .default ↔ fld w 0 11 = (0 : BitVec 11) := by
  simp only [MessageControl.spec, MessageControl.default, MultipleMessage.default,
    MessageControl.mk.injEq, MultipleMessage.mk.injEq, fld_eq_zero_iff, flag]
  constructor
  · rintro ⟨h0, h1, h4, h7, h8, h9, h10⟩ i hi
    have hi : i < 11 := by omega
    have a1 := h1 0 (by decide)
    have a2 := h1 1 (by decide)
    have a3 := h1 2 (by decide)
    have b1 := h4 0 (by decide)
    have b2 := h4 1 (by decide)
    have b3 := h4 2 (by decide)
    interval_cases i <;> assumption
  · intro h
    refine ⟨h 0 (by decide), ?_, ?_, h 7 (by decide), h 8 (by decide), h 9 (by decide),
      h 10 (by decide)⟩
    · intro i hi
      simpa using h (1 + i) (by omega)
    · intro i hi
      simpa using h (4 + i) (by omega)

/-- C74: the default MSI capability is what a slice decodes to exactly when the ten bytes of the
32-bit layout are there and are zero, reserved bits 11 to 15 of message control aside. -/
theorem msi_default_iff (d : Bytes) :
    MessageSignaledInterrups.ofBytes d = .ok .default ↔
      10 ≤ d.length ∧ fld (rd16 d 0) 0 11 = (0 : BitVec 11) ∧ rd32 d 2 = 0 ∧ rd16 d 6 = 0 ∧
        rd16 d 8 = 0 := by
  rw [MessageSignaledInterrups_bytes]
  constructor
  · intro h
    by_cases h2 : 2 ≤ d.length
    · simp only [h2, if_true] at h
      split at h
      · rename_i hs
        simp only [Res.ok.injEq] at h
        have hc : MessageControl.spec (rd16 d 0) = .default :=
          congrArg MessageSignaledInterrups.message_control h
        have h7 : flag (rd16 d 0) 7 = false := congrArg MessageControl.a_64_bit_address_capable hc
        have h8 : flag (rd16 d 0) 8 = false := congrArg MessageControl.per_vector_masking_capable hc
        rw [h7, h8] at h hs
        refine ⟨by simpa [MessageSignaledInterrups.specSize] using hs,
          (control_default_iff _).1 hc, ?_, ?_, ?_⟩
        · simpa [MessageSignaledInterrups.spec, MessageSignaledInterrups.default,
            MessageAddress.default] using congrArg MessageSignaledInterrups.message_address h
        · exact congrArg MessageSignaledInterrups.message_data h
        · exact congrArg MessageSignaledInterrups.extended_message_data h
      · cases h
    · simp [h2] at h
  · rintro ⟨hl, hc, ha, hm, he⟩
    have hc := (control_default_iff _).2 hc
    have h7 : flag (rd16 d 0) 7 = false := congrArg MessageControl.a_64_bit_address_capable hc
    have h8 : flag (rd16 d 0) 8 = false := congrArg MessageControl.per_vector_masking_capable hc
    have h2 : 2 ≤ d.length := by omega
    simp [h2, h7, h8, MessageSignaledInterrups.specSize, hl, MessageSignaledInterrups.spec, hc, ha,
      hm, he, MessageSignaledInterrups.default, MessageAddress.default]

/-- Zero bytes meet the condition, and non-zero reserved bits do too. -/
example : MessageSignaledInterrups.ofBytes (List.replicate 12 0) = .ok .default ∧
    MessageSignaledInterrups.ofBytes [0, 0xf8, 0, 0, 0, 0, 0, 0, 0, 0] = .ok .default := by
  decide +kernel

end Pcics.Defaults
