import Verif.Lemmas.Reads
import Verif.Spec.Ext.TphRequester
import Verif.Lemmas.Tactics
import Verif.Lemmas.Bv
/- Properties of src/extended_capabilities/tph_requester.rs -/

namespace Pcics.TphRequester
open Spec

/-- C63: meaning of every code of `StModeSelect`. -/
theorem StModeSelect_values (b : U8) : StModeSelect.ofU8 b = StModeSelect.spec b := by
  revert b; decide +kernel

/-- C63: the `4` codes of `TphRequesterEnable` decode without panic, to their meanings. -/
theorem TphRequesterEnable_total {ε : Type} (n : Nat) :
    (TphRequesterEnable.ofU8 (BitVec.ofNat 8 (n % 4)) : Res ε TphRequesterEnable) =
      .ok (TphRequesterEnable.spec (BitVec.ofNat 8 (n % 4))) := by
  have h : n % 4 < 4 := Nat.mod_lt _ (by decide)
  generalize n % 4 = m at h
  interval_cases m <;> rfl

/-- C63: every field of `TphRequesterControl` is at its bit position. -/
theorem TphRequesterControl_layout {ε : Type} (w : U32) :
    (TphRequesterControl.ofU32 w : Res ε TphRequesterControl) = .ok (TphRequesterControl.spec w) := by
  bits_simp [TphRequesterControl.ofU32, TphRequesterControl.spec, StModeSelect_values,
    TphRequesterEnable_total]

/-- C63: the ST table is decided by its location: a table in the structure is valid exactly when it
has at most 64 entries and all of their bytes are there. -/
theorem StTable_new {ε : Type} (w : U32) (size : U16) (rest : Bytes) :
    (StTable.new (fld w 9 2) size rest : Res ε StTable) =
      .ok (StTable.spec (fld w 9 2) size rest) := by
  have h : (fld w 9 2 : U8) = 0 ∨ (fld w 9 2 : U8) = 1 ∨ (fld w 9 2 : U8) = 2 ∨
      (fld w 9 2 : U8) = 3 := by
    have : (fld w 9 2 : U8).toNat < 4 := by
      simp only [fld, BitVec.toNat_setWidth, BitVec.extractLsb'_toNat]; omega
    generalize (fld w 9 2 : U8) = x at *
    revert x; decide +kernel
  rcases h with h | h | h | h <;> rw [h]
  · rfl
  · have e : (StTable.new 1 size rest : Res ε StTable) =
        match decide (size.toNat ≤ 63), getTo rest (size.toNat * 2 + 2) with
        | true, some data => .ok (.Valid size data)
        | _, _ => .ok (.Invalid size rest) := rfl
    rw [e]
    simp only [StTable.spec, pick, getTo_eq, show size.toNat * 2 + 2 = 2 * (size.toNat + 1) by omega]
    by_cases h1 : size.toNat ≤ 63
    · by_cases h2 : 2 * (size.toNat + 1) ≤ rest.length
      · simp [h1, h2, show size.toNat + 1 ≤ 64 by omega]
      · simp [h1, h2]
    · simp [h1, show ¬ size.toNat + 1 ≤ 64 by omega]
  · rfl
  · rfl

theorem cap_bits (w : U32) : (runBits w do
    let no_st ← bit
    let iv ← bit
    let ds ← bit
    skip 5
    let ext ← bit
    let st_table_location ← bits 2
    skip 5
    let st_table_size ← bits 11
    skip 5
    return (no_st, iv, ds, ext, st_table_location, st_table_size) :
      Bool × Bool × Bool × Bool × U8 × U16) =
    (flag w 0, flag w 1, flag w 2, flag w 8, fld w 9 2, fld w 16 11) := by
  bits_simp []

/-- C63: the structure is decoded exactly when 8 bytes are there, every field from its place. -/
theorem TphRequester_bytes (d : Bytes) :
    TphRequester.ofBytes d =
      if 8 ≤ d.length then .ok (TphRequester.spec d)
      else .err { name := "TPH Requester", size := 8 } := by
  by_cases h : 8 ≤ d.length
  · bytes_len [TphRequester.ofBytes]
    simp only [cap_bits]
    rw [StTable_new, TphRequesterControl_layout]
    rfl
  · bytes_len [TphRequester.ofBytes]

example : TphRequester.ofBytes [0x05, 0x03, 1, 0, 2, 1, 0, 0, 0x11, 0x22, 0x33, 0x44, 0x55] =
    .ok ⟨⟨true, false, true, true, .Valid 1 [0x11, 0x22, 0x33, 0x44]⟩,
      ⟨.DeviceSpecificMode, .TphPermitted⟩⟩ := by decide +kernel
example : TphRequester.ofBytes [0x05, 0x02, 64, 0, 2, 1, 0, 0, 0x11, 0x22, 0x33] =
    .ok ⟨⟨true, false, true, false, .Invalid 64 [0x11, 0x22, 0x33]⟩,
      ⟨.DeviceSpecificMode, .TphPermitted⟩⟩ := by decide +kernel

/-! ### C76 -/

theorem StModeSelect_bits3 {n : Nat} (a b : BitVec n) (lo : Nat) :
    StModeSelect.spec (fld a lo 3) = StModeSelect.spec (fld b lo 3) ↔
      ∀ i, i < 3 → a.getLsbD (lo + i) = b.getLsbD (lo + i) :=
  code_eq_iff _ 3 (by decide) (by decide +kernel) a b lo

theorem TphRequesterEnable_bits2 {n : Nat} (a b : BitVec n) (lo : Nat) :
    TphRequesterEnable.spec (fld a lo 2) = TphRequesterEnable.spec (fld b lo 2) ↔
      ∀ i, i < 2 → a.getLsbD (lo + i) = b.getLsbD (lo + i) :=
  code_eq_iff _ 2 (by decide) (by decide +kernel) a b lo

/-- C76: `TphRequesterControl` registers decode to the same value exactly when they agree in bits
0-2, 8-9. -/
theorem TphRequesterControl_reads {ε : Type} (a b : U32) :
    (TphRequesterControl.ofU32 a : Res ε TphRequesterControl) = TphRequesterControl.ofU32 b ↔
      a &&& 0x00000307#32 = b &&& 0x00000307#32 := by
  reads [TphRequesterControl_layout, TphRequesterControl.spec, TphRequesterControl.mk.injEq,
    StModeSelect_bits3, TphRequesterEnable_bits2]

/-- A reserved bit makes no difference to `TphRequesterControl`, a defined one does. -/
example : (TphRequesterControl.ofU32 0x2827688d : Res Empty _) = TphRequesterControl.ofU32 0xa827688d ∧
    (TphRequesterControl.ofU32 0x2827688d : Res Empty _) ≠ TphRequesterControl.ofU32 0x28276889 :=
  ⟨(TphRequesterControl_reads _ _).2 (by decide), fun h => absurd ((TphRequesterControl_reads _ _).1 h) (by decide)⟩

end Pcics.TphRequester
