import Verif.Lemmas.Reads
import Verif.Spec.Cap.MsiX
import Verif.Lemmas.Tactics
import Verif.Lemmas.Bv
/- Properties of src/capabilities/msi_x.rs -/

namespace Pcics.MsiX
open Spec

/-- C35: meaning of every code of `Bir`. -/
theorem Bir_values (b : U8) : Bir.ofU8 b = Bir.spec b := by
  revert b; decide +kernel

/-- C35: every field of `MessageControl` is at its bit position. -/
theorem MessageControl_layout (w : U16) :
    MessageControl.ofU16 w = MessageControl.spec w := by
  bits_simp [MessageControl.ofU16, MessageControl.spec]

private theorem offset_eq (w : U32) : (fld w 3 29 : U32) <<< 3 = w &&& ~~~0b111#32 := by
  bv_bits []

/-- C35: every field of `Table` is at its bit position. -/
theorem Table_layout (w : U32) : Table.ofU32 w = Table.spec w := by
  have h : Table.ofU32 w = ⟨.spec (fld w 0 3), (fld w 3 29 : U32) <<< 3⟩ := by
    bits_simp [Table.ofU32, Bir_values]
  rw [h, offset_eq]; rfl

/-- C35: every field of `PendingBitArray` is at its bit position. -/
theorem PendingBitArray_layout (w : U32) : PendingBitArray.ofU32 w = PendingBitArray.spec w := by
  have h : PendingBitArray.ofU32 w = ⟨.spec (fld w 0 3), (fld w 3 29 : U32) <<< 3⟩ := by
    bits_simp [PendingBitArray.ofU32, Bir_values]
  rw [h, offset_eq]; rfl

/-- C35: decoding succeeds exactly when 10 bytes are present and reads every register from its
offset. -/
theorem MsiX_bytes (d : Bytes) :
    MsiX.ofBytes d = if 10 ≤ d.length then .ok (MsiX.spec d) else .err ⟨"MSI-X", 10⟩ := by
  unfold MsiX.ofBytes MsiX.ofArray
  by_cases h : 10 ≤ d.length <;> bytes_len [MsiX.SIZE, MessageControl_layout, Table_layout,
    PendingBitArray_layout]
  rfl

example : MsiX.ofBytes [0x0f, 0x80, 0x04, 0x20, 0, 0, 0x04, 0x30, 0, 0] =
    .ok ⟨⟨15, false, true⟩, ⟨.Bar20h, 0x2000⟩, ⟨.Bar20h, 0x3000⟩⟩ := by decide +kernel

/-! ### C76 -/

theorem Bir_bits3 {n : Nat} (a b : BitVec n) (lo : Nat) :
    Bir.spec (fld a lo 3) = Bir.spec (fld b lo 3) ↔
      ∀ i, i < 3 → a.getLsbD (lo + i) = b.getLsbD (lo + i) :=
  code_eq_iff _ 3 (by decide) (by decide +kernel) a b lo

/-- C76: `MessageControl` registers decode to the same value exactly when they agree in bits 0-10,
14-15. -/
theorem MessageControl_reads (a b : U16) :
    MessageControl.ofU16 a = MessageControl.ofU16 b ↔
      a &&& 0xc7ff#16 = b &&& 0xc7ff#16 := by
  reads [MessageControl_layout, MessageControl.spec, MessageControl.mk.injEq]

/-- C76: `Table` registers decode to the same value only if they are equal. -/
theorem Table_reads (a b : U32) : Table.ofU32 a = Table.ofU32 b ↔ a = b := by
  rw [eq_iff_bits a b]
  reads [Table_layout, Table.spec, Table.mk.injEq, Bir_bits3]

/-- C76: `PendingBitArray` registers decode to the same value only if they are equal. -/
theorem PendingBitArray_reads (a b : U32) : PendingBitArray.ofU32 a = PendingBitArray.ofU32 b ↔ a = b := by
  rw [eq_iff_bits a b]
  reads [PendingBitArray_layout, PendingBitArray.spec, PendingBitArray.mk.injEq, Bir_bits3]

/-- A reserved bit makes no difference to `MessageControl`, a defined one does. -/
example : MessageControl.ofU16 0xd76d = MessageControl.ofU16 0xf76d ∧
    MessageControl.ofU16 0xd76d ≠ MessageControl.ofU16 0xd72d :=
  ⟨(MessageControl_reads _ _).2 (by decide), fun h => absurd ((MessageControl_reads _ _).1 h) (by decide)⟩

end Pcics.MsiX
