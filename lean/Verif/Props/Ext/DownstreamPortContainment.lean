import Verif.Lemmas.Reads
import Verif.Spec.Ext.DownstreamPortContainment
import Verif.Lemmas.Tactics
import Verif.Lemmas.Bv
/- Properties of src/extended_capabilities/downstream_port_containment.rs -/

namespace Pcics.DownstreamPortContainment
open Spec

/-- C52: meaning of every code of `DpcTrigger`. -/
theorem DpcTrigger_values (b : U8) : DpcTrigger.ofU8 b = DpcTrigger.spec b := by
  revert b; decide +kernel

/-- C52: every field of `DpcCapability` is at its bit position. -/
theorem DpcCapability_layout (w : U16) :
    DpcCapability.ofU16 w = DpcCapability.spec w := by
  bits_simp [DpcCapability.ofU16, DpcCapability.spec]

/-- C52: every field of `DpcControl` is at its bit position. -/
theorem DpcControl_layout (w : U16) :
    DpcControl.ofU16 w = DpcControl.spec w := by
  bits_simp [DpcControl.ofU16, DpcControl.spec, DpcTrigger_values]

/-- C52: trigger reason and extension. -/
theorem DpcTriggerReason_values (r e : U8) : DpcTriggerReason.new r e = DpcTriggerReason.spec r e :=
  rfl

/-- C52, C56: the trigger reason gives back its two codes. -/
theorem DpcTriggerReason_roundtrip (r e : U8) (h : r.toNat < 4) :
    (DpcTriggerReason.new r e).value = r ∧
      (r = 3 → (DpcTriggerReason.new r e).extension_value = e) := by
  have hb : r = BitVec.ofNat 8 r.toNat := by simp
  generalize r.toNat = n at hb h
  subst hb
  interval_cases n
  · exact ⟨rfl, fun h => absurd h (by decide)⟩
  · exact ⟨rfl, fun h => absurd h (by decide)⟩
  · exact ⟨rfl, fun h => absurd h (by decide)⟩
  · by_cases h0 : e = 0
    · subst h0; exact ⟨rfl, fun _ => rfl⟩
    · by_cases h1 : e = 1
      · subst h1; exact ⟨rfl, fun _ => rfl⟩
      · have : DpcTriggerReason.new (BitVec.ofNat 8 3) e = .Reserved e := by
          have h : DpcTriggerReason.new (BitVec.ofNat 8 3) e =
            if e = 0 then .RpPioError else if e = 1 then .DpcSoftwareTriggerBit
            else .Reserved e := rfl
          rw [h, if_neg h0, if_neg h1]
        rw [this]
        exact ⟨rfl, fun _ => rfl⟩

example : (3 : U8).toNat < 4 := by decide

/-- C52: every field of `DpcStatus` is at its bit position. -/
theorem DpcStatus_layout (w : U16) :
    DpcStatus.ofU16 w = DpcStatus.spec w := by
  bits_simp [DpcStatus.ofU16, DpcStatus.spec, DpcTriggerReason_values]

/-- C52: every field of `RpPio` is at its bit position. -/
theorem RpPio_layout (w : U32) :
    RpPio.ofU32 w = RpPio.spec w := by
  bits_simp [RpPio.ofU32, RpPio.spec]

theorem readPrefixLog_eq (i n : Nat) (d : Bytes) :
    readPrefixLog i n d =
      if 4 * n ≤ d.length then .ok (rd32s d 0 n) else .err (.RpPioTlpPrefixLog (i + d.length / 4)) := by
  induction n generalizing i d with
  | zero => simp [readPrefixLog, rd32s]
  | succ n ih =>
    rw [readPrefixLog]
    by_cases h4 : 4 ≤ d.length
    · bytes_len [ih]
      by_cases h : 4 * (n + 1) ≤ d.length
      · rw [if_pos (by omega), if_pos h]
        simp only [Res.bind_ok, rd32s, rd32_drop, List.range_succ_eq_map, List.map_cons,
          List.map_map]
        congr 2
        apply List.map_congr_left
        intro a _
        simp only [Function.comp_apply]
        congr 1; omega
      · rw [if_neg (by omega), if_neg h]
        congr 2
        omega
    · bytes_len []
      congr 2
      omega

/-- C52: the conditional registers: RP extensions iff bit 5 of the capability register is set, ImpSpec
log iff the log size is at least 5, then `log size - 5` (at most 4) dwords of TLP prefix log, the
remaining ones 0; each error names the first part that does not fit. -/
theorem DownstreamPortContainment_bytes (d : Bytes) :
    DownstreamPortContainment.ofBytes d =
      if d.length < 8 then .err .Mandatory
      else if flag (rd16 d 0) 5 = false then .ok (.spec d none)
      else if d.length < 44 then .err .RpExtensions
      else if 5 ≤ logSize d ∧ d.length < 48 then .err .RpPioImpspecLog
      else if 5 < logSize d ∧ d.length < 48 + 4 * prefixDwords d then
        .err (.RpPioTlpPrefixLog ((d.length - 48) / 4))
      else .ok (.spec d (some (.spec d))) := by
  by_cases h : d.length < 8
  · rw [if_pos h]
    bytes_len [DownstreamPortContainment.ofBytes]
  rw [if_neg h]
  bytes_len [DownstreamPortContainment.ofBytes, DpcCapability_layout, DpcControl_layout,
    DpcStatus_layout, RpPio_layout, readPrefixLog_eq]
  have hp : (DpcCapability.spec (rd16 d 0)).rp_extensions_for_dpc = flag (rd16 d 0) 5 := rfl
  have hs : (DpcCapability.spec (rd16 d 0)).rp_pio_log_size.toNat = logSize d := rfl
  have hm : min (logSize d - 5) 4 = prefixDwords d := rfl
  rw [hp, hs, hm]
  rcases Bool.eq_false_or_eq_true (flag (rd16 d 0) 5) with hb | hb
  · by_cases h44 : d.length < 44
    · bytes_len [if_true, if_false, hb, Bool.true_eq_false]
    by_cases h5 : 5 ≤ logSize d
    · by_cases h48 : d.length < 48
      · bytes_len [if_true, if_false, hb, Bool.true_eq_false, and_true, h5, h48]
      · by_cases h6 : 5 < logSize d
        · by_cases hl : d.length < 48 + 4 * prefixDwords d
          · bytes_len [if_true, if_false, hb, Bool.true_eq_false, h5, h48, h6, hl, and_false, and_self]
            congr 2
          · bytes_len [if_true, if_false, hb, Bool.true_eq_false, h5, h48, h6, hl, and_false,
              DownstreamPortContainment.spec, RpExtensions.spec]
        · bytes_len [if_true, if_false, hb, Bool.true_eq_false, h5, h48, h6, and_false, false_and,
            DownstreamPortContainment.spec, RpExtensions.spec]
    · have h6 : ¬ 5 < logSize d := by omega
      bytes_len [if_true, if_false, hb, Bool.true_eq_false, h5, h6, false_and,
        DownstreamPortContainment.spec, RpExtensions.spec]
  · bytes_len [if_true, if_false, hb, Bool.false_eq_true, DownstreamPortContainment.spec]

/-- C52: never panics. -/
theorem DownstreamPortContainment_no_panic (d : Bytes) :
    DownstreamPortContainment.ofBytes d ≠ .panic := by
  rw [DownstreamPortContainment_bytes]
  repeat' split
  all_goals simp

example : (DownstreamPortContainment.ofBytes (0x20 :: 0x07 :: List.replicate 46 0 ++
    [1, 0, 0, 0, 2, 0, 0, 0])).map' (fun x => x.rp_extensions.map (·.rp_pio_tlp_prefix_log)) =
    .ok (some (some ⟨[1, 2, 0, 0]⟩)) := by decide +kernel
example : DownstreamPortContainment.ofBytes (0x20 :: 0x07 :: List.replicate 46 0 ++
    [1, 0, 0, 0, 2, 0, 0]) = .err (.RpPioTlpPrefixLog 1) := by decide +kernel

/-! ### C76 -/

theorem DpcTrigger_bits2 {n : Nat} (a b : BitVec n) (lo : Nat) :
    DpcTrigger.spec (fld a lo 2) = DpcTrigger.spec (fld b lo 2) ↔
      ∀ i, i < 2 → a.getLsbD (lo + i) = b.getLsbD (lo + i) :=
  code_eq_iff _ 2 (by decide) (by decide +kernel) a b lo

/-- C76: `DpcCapability` registers decode to the same value exactly when they agree in bits 0-12.
-/
theorem DpcCapability_reads (a b : U16) :
    DpcCapability.ofU16 a = DpcCapability.ofU16 b ↔
      a &&& 0x1fff#16 = b &&& 0x1fff#16 := by
  reads [DpcCapability_layout, DpcCapability.spec, DpcCapability.mk.injEq]

/-- C76: `DpcControl` registers decode to the same value exactly when they agree in bits 0-7. -/
theorem DpcControl_reads (a b : U16) :
    DpcControl.ofU16 a = DpcControl.ofU16 b ↔
      a &&& 0x00ff#16 = b &&& 0x00ff#16 := by
  reads [DpcControl_layout, DpcControl.spec, DpcControl.mk.injEq, DpcTrigger_bits2]

/-- C76: `RpPio` registers decode to the same value exactly when they agree in bits 0-2, 8-10,
16-18. -/
theorem RpPio_reads (a b : U32) :
    RpPio.ofU32 a = RpPio.ofU32 b ↔
      a &&& 0x00070707#32 = b &&& 0x00070707#32 := by
  reads [RpPio_layout, RpPio.spec, RpPio.mk.injEq]

theorem DpcTriggerReason_codes (r s : BitVec 2) (e f : BitVec 2) :
    DpcTriggerReason.spec (r.setWidth 8) (e.setWidth 8) =
      DpcTriggerReason.spec (s.setWidth 8) (f.setWidth 8) ↔ r = s ∧ (s &&& 3 = 3 → e = f) := by
  revert r s e f; decide +kernel

/-- C76: `DpcStatus` registers decode to the same value exactly when they agree in bits 0-4 and
8-12 and, when the trigger reason of bits 1-2 is 3, also in the extension of bits 5-6, which says
which of the further reasons applies. -/
theorem DpcStatus_reads (a b : U16) :
    DpcStatus.ofU16 a = DpcStatus.ofU16 b ↔
      a &&& 0x1f1f#16 = b &&& 0x1f1f#16 ∧
        (b &&& 0x0006#16 = 0x0006#16 → a &&& 0x0060#16 = b &&& 0x0060#16) := by
  have h := DpcTriggerReason_codes (a.extractLsb' 1 2) (b.extractLsb' 1 2) (a.extractLsb' 5 2)
    (b.extractLsb' 5 2)
  simp only [← fld_code] at h
  reads [DpcStatus_layout, DpcStatus.spec, DpcStatus.mk.injEq, h, mask_const_iff,
    extract_eq_iff, BitVec.getLsbD_extractLsb', BitVec.ofNat_eq_ofNat]
  · rename_i h; exact ⟨trivial, h.2.1.2⟩
  · rename_i h; exact ⟨trivial, ⟨trivial, h.2⟩, trivial⟩

/-- A reserved bit makes no difference to `DpcCapability`, a defined one does. -/
example : DpcCapability.ofU16 0xa623 = DpcCapability.ofU16 0x2623 ∧
    DpcCapability.ofU16 0xa623 ≠ DpcCapability.ofU16 0xa663 :=
  ⟨(DpcCapability_reads _ _).2 (by decide), fun h => absurd ((DpcCapability_reads _ _).1 h) (by decide)⟩

end Pcics.DownstreamPortContainment
