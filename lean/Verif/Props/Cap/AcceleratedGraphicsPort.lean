import Verif.Lemmas.Reads
import Verif.Spec.Cap.AcceleratedGraphicsPort
import Verif.Lemmas.Tactics
import Verif.Lemmas.Bv
/- Properties of src/capabilities/accelerated_graphics_port.rs -/

namespace Pcics.AcceleratedGraphicsPort
open Spec

/-- C31: meaning of every code of `CalCycle`. -/
theorem CalCycle_values (b : U8) : CalCycle.ofU8 b = CalCycle.spec b := by
  revert b; decide +kernel

/-- C31: meaning of every code of `DataRateSupport`. -/
theorem DataRateSupport_values (b : U8) : DataRateSupport.ofU8 b = DataRateSupport.spec b := by
  revert b; decide +kernel

/-- C31: meaning of every code of `DataRateEnabled`. -/
theorem DataRateEnabled_values (b : U8) : DataRateEnabled.ofU8 b = DataRateEnabled.spec b := by
  revert b; decide +kernel

/-- C31: every field of `Identifier` is at its bit position. -/
theorem Identifier_layout (w : U16) :
    Identifier.ofU16 w = Identifier.spec w := by
  bits_simp [Identifier.ofU16, Identifier.spec]

/-- C31: every field of `Status` is at its bit position. -/
theorem Status_layout (w : U32) :
    Status.ofU32 w = Status.spec w := by
  bits_simp [Status.ofU32, Status.spec, CalCycle_values, DataRateSupport_values]

/-- C31: every field of `Command` is at its bit position. -/
theorem Command_layout (w : U32) :
    Command.ofU32 w = Command.spec w := by
  bits_simp [Command.ofU32, Command.spec, CalCycle_values, DataRateEnabled_values]

/-- C31: every field of `IsochronousStatus` is at its bit position. -/
theorem IsochronousStatus_layout (w : U32) :
    IsochronousStatus.ofU32 w = IsochronousStatus.spec w := by
  bits_simp [IsochronousStatus.ofU32, IsochronousStatus.spec]

/-- C31: every field of `Control` is at its bit position. -/
theorem Control_layout (w : U32) :
    Control.ofU32 w = Control.spec w := by
  bits_simp [Control.ofU32, Control.spec]

/-- C31: every field of `IsochronousCommand` is at its bit position. -/
theorem IsochronousCommand_layout (w : U16) :
    IsochronousCommand.ofU16 w = IsochronousCommand.spec w := by
  bits_simp [IsochronousCommand.ofU16, IsochronousCommand.spec]

/-- C56: calibration cycle round trip. -/
theorem CalCycle_roundtrip (b : U8) : (CalCycle.ofU8 b).toU8 = b := by
  revert b; decide +kernel

/-- C56: data rate support round trip. -/
theorem DataRateSupport_roundtrip (b : U8) : (DataRateSupport.ofU8 b).toU8 = b := by
  revert b; decide +kernel

/-- C56: data rate round trip. -/
theorem DataRateEnabled_roundtrip (b : U8) : (DataRateEnabled.ofU8 b).toU8 = b := by
  revert b; decide +kernel

/-- C31: decoding succeeds exactly when the mandatory 10 bytes are present; every register is read
from its offset, optional ones exactly as far as the data reaches. -/
theorem AcceleratedGraphicsPort_bytes (d : Bytes) :
    AcceleratedGraphicsPort.ofBytes d =
      if 10 ≤ d.length then .ok (AcceleratedGraphicsPort.spec d) else .err ⟨"AGP", 10⟩ := by
  unfold AcceleratedGraphicsPort.ofBytes
  by_cases h : 10 ≤ d.length
  · bytes_len [Status_layout, Command_layout, Identifier_layout]
    have hs : (Status.spec (rd32 d 2)).isoch_support = flag (rd32 d 2) 17 := rfl
    rw [hs, AcceleratedGraphicsPort.spec]
    unfold optionalRegisters
    by_cases h1 : 14 ≤ d.length
    · by_cases h2 : 18 ≤ d.length
      · by_cases h3 : 20 ≤ d.length
        · by_cases h4 : 22 ≤ d.length
          · by_cases h5 : 26 ≤ d.length
            · by_cases h6 : 30 ≤ d.length
              · by_cases h7 : 32 ≤ d.length
                · bytes_len [IsochronousStatus_layout, Control_layout, IsochronousCommand_layout]
                  simp only [h1, h7, true_and]
                · bytes_len [IsochronousStatus_layout, Control_layout, IsochronousCommand_layout]
                  simp only [h1, h7, true_and, false_and, if_false]
              · bytes_len [IsochronousStatus_layout, Control_layout, IsochronousCommand_layout]
                simp only [h1, true_and]
            · bytes_len [IsochronousStatus_layout, Control_layout, IsochronousCommand_layout]
              simp only [h1, true_and]
          · bytes_len [IsochronousStatus_layout, Control_layout, IsochronousCommand_layout]
            simp only [h1, true_and]
        · bytes_len [IsochronousStatus_layout, Control_layout, IsochronousCommand_layout]
          simp only [h1, true_and]
      · bytes_len [IsochronousStatus_layout, Control_layout, IsochronousCommand_layout]
        simp only [h1, true_and]
    · bytes_len [IsochronousStatus_layout, Control_layout, IsochronousCommand_layout]
  · bytes_len []

example : AcceleratedGraphicsPort.ofBytes
    ([0x35, 0x00] ++ [0x0b, 0x4e, 0x02, 0x1f] ++ [0x02, 0x03, 0x00, 0x1f] ++
      [0x49, 0x02, 0x01, 0x00] ++ [0x80, 0x01, 0, 0] ++ [0x2f, 0x0f] ++ [1, 0]) =
    .ok {
      identifier := ⟨5, 3⟩
      status := {
        rq := 31, isoch_support := true, reserved := false, arqsz := 2, cal_cycle := .Period256ms,
        sba := true, ita_coh := false, gart64b := false, htrans := false, over4g := false,
        fw := false, agp_3_0_mode := true, rate := .Speed4xAnd8x }
      command := {
        prq := 31, parqsz := 0, pcal_cycle := .Period4ms, sba_enable := true, agp_enable := true,
        gart64b := false, over4g := false, fw_enable := false, drate := .Speed8x }
      isochronous_status := some ⟨1, 2, ⟨1⟩, 1, ⟨1⟩⟩
      control := some ⟨false, true, true⟩
      aperture_size := some ⟨0xf2f⟩
      enabled_aperture_page_size := some ⟨1⟩
      gart_pointer := none
      isochronous_command := none } := by decide +kernel

/-! ### C76 -/

theorem CalCycle_bits3 {n : Nat} (a b : BitVec n) (lo : Nat) :
    CalCycle.spec (fld a lo 3) = CalCycle.spec (fld b lo 3) ↔
      ∀ i, i < 3 → a.getLsbD (lo + i) = b.getLsbD (lo + i) :=
  code_eq_iff _ 3 (by decide) (by decide +kernel) a b lo

theorem DataRateSupport_bits3 {n : Nat} (a b : BitVec n) (lo : Nat) :
    DataRateSupport.spec (fld a lo 3) = DataRateSupport.spec (fld b lo 3) ↔
      ∀ i, i < 3 → a.getLsbD (lo + i) = b.getLsbD (lo + i) :=
  code_eq_iff _ 3 (by decide) (by decide +kernel) a b lo

theorem DataRateEnabled_bits3 {n : Nat} (a b : BitVec n) (lo : Nat) :
    DataRateEnabled.spec (fld a lo 3) = DataRateEnabled.spec (fld b lo 3) ↔
      ∀ i, i < 3 → a.getLsbD (lo + i) = b.getLsbD (lo + i) :=
  code_eq_iff _ 3 (by decide) (by decide +kernel) a b lo

/-- C76: `Identifier` registers decode to the same value exactly when they agree in bits 0-7. -/
theorem Identifier_reads (a b : U16) :
    Identifier.ofU16 a = Identifier.ofU16 b ↔
      a &&& 0x00ff#16 = b &&& 0x00ff#16 := by
  reads [Identifier_layout, Identifier.spec, Identifier.mk.injEq]

/-- C76: `Status` registers decode to the same value exactly when they agree in bits 0-17, 24-31.
-/
theorem Status_reads (a b : U32) :
    Status.ofU32 a = Status.ofU32 b ↔
      a &&& 0xff03ffff#32 = b &&& 0xff03ffff#32 := by
  reads [Status_layout, Status.spec, Status.mk.injEq, CalCycle_bits3, DataRateSupport_bits3]

/-- C76: `Command` registers decode to the same value exactly when they agree in bits 0-2, 4-5,
7-15, 24-31. -/
theorem Command_reads (a b : U32) :
    Command.ofU32 a = Command.ofU32 b ↔
      a &&& 0xff00ffb7#32 = b &&& 0xff00ffb7#32 := by
  reads [Command_layout, Command.spec, Command.mk.injEq, CalCycle_bits3, DataRateEnabled_bits3]

/-- C76: `IsochronousStatus` registers decode to the same value exactly when they agree in bits
0-1, 3-23. -/
theorem IsochronousStatus_reads (a b : U32) :
    IsochronousStatus.ofU32 a = IsochronousStatus.ofU32 b ↔
      a &&& 0x00fffffb#32 = b &&& 0x00fffffb#32 := by
  reads [IsochronousStatus_layout, IsochronousStatus.spec, IsochronousStatus.mk.injEq,
    IsochY.mk.injEq, IsochErrorCode.mk.injEq]

/-- C76: `Control` registers decode to the same value exactly when they agree in bits 7-9. -/
theorem Control_reads (a b : U32) :
    Control.ofU32 a = Control.ofU32 b ↔
      a &&& 0x00000380#32 = b &&& 0x00000380#32 := by
  reads [Control_layout, Control.spec, Control.mk.injEq]

/-- C76: `IsochronousCommand` registers decode to the same value exactly when they agree in bits
6-15. -/
theorem IsochronousCommand_reads (a b : U16) :
    IsochronousCommand.ofU16 a = IsochronousCommand.ofU16 b ↔
      a &&& 0xffc0#16 = b &&& 0xffc0#16 := by
  reads [IsochronousCommand_layout, IsochronousCommand.spec, IsochronousCommand.mk.injEq]

/-- A reserved bit makes no difference to `Identifier`, a defined one does. -/
example : Identifier.ofU16 0xf144 = Identifier.ofU16 0x7144 ∧
    Identifier.ofU16 0xf144 ≠ Identifier.ofU16 0xf154 :=
  ⟨(Identifier_reads _ _).2 (by decide), fun h => absurd ((Identifier_reads _ _).1 h) (by decide)⟩

end Pcics.AcceleratedGraphicsPort
