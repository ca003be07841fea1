import Verif.Lemmas.Reads
import Verif.Spec.Cap.Hypertransport
import Verif.Lemmas.Tactics
import Verif.Lemmas.Bv
/- Properties of src/capabilities/hypertransport.rs -/

namespace Pcics.Hypertransport
open Spec

/-- C37: meaning of every code of `LinkWidth`. -/
theorem LinkWidth_values (b : U8) : LinkWidth.ofU8 b = LinkWidth.spec b := by
  revert b; decide +kernel

/-- C37: every field of `SlaveOrPrimaryCommand` is at its bit position. -/
theorem SlaveOrPrimaryCommand_layout (w : U16) :
    SlaveOrPrimaryCommand.ofU16 w = SlaveOrPrimaryCommand.spec w := by
  bits_simp [SlaveOrPrimaryCommand.ofU16, SlaveOrPrimaryCommand.spec]

/-- C37: every field of `LinkControl` is at its bit position. -/
theorem LinkControl_layout (w : U16) :
    LinkControl.ofU16 w = LinkControl.spec w := by
  bits_simp [LinkControl.ofU16, LinkControl.spec]

/-- C37: every field of `LinkConfiguration` is at its bit position. -/
theorem LinkConfiguration_layout (w : U16) :
    LinkConfiguration.ofU16 w = LinkConfiguration.spec w := by
  bits_simp [LinkConfiguration.ofU16, LinkConfiguration.spec, LinkWidth_values]

/-- C37: every field of `RevisionId` is at its bit position. -/
theorem RevisionId_layout (w : U8) :
    RevisionId.ofU8 w = RevisionId.spec w := by
  bits_simp [RevisionId.ofU8, RevisionId.spec]

/-- C37: every field of `LinkFrequencyCapability` is at its bit position. -/
theorem LinkFrequencyCapability_layout (w : U16) :
    LinkFrequencyCapability.ofU16 w = LinkFrequencyCapability.spec w := by
  bits_simp [LinkFrequencyCapability.ofU16, LinkFrequencyCapability.spec]

/-- C37: every field of `FeatureCapability` is at its bit position. -/
theorem FeatureCapability_layout (w : U16) :
    FeatureCapability.ofU16 w = FeatureCapability.spec w := by
  bits_simp [FeatureCapability.ofU16, FeatureCapability.spec]

/-- C37: every field of `ErrorHandling` is at its bit position. -/
theorem ErrorHandling_layout (w : U16) :
    ErrorHandling.ofU16 w = ErrorHandling.spec w := by
  bits_simp [ErrorHandling.ofU16, ErrorHandling.spec]

/-- C37: every field of `HostOrSecondaryCommand` is at its bit position. -/
theorem HostOrSecondaryCommand_layout (w : U16) :
    HostOrSecondaryCommand.ofU16 w = HostOrSecondaryCommand.spec w := by
  bits_simp [HostOrSecondaryCommand.ofU16, HostOrSecondaryCommand.spec]

/-- C56: revision id round trip. -/
theorem RevisionId_roundtrip (b : U8) : (RevisionId.ofU8 b).toU8 = b := by
  revert b; decide +kernel

/-- C37: link frequency table, for every extension bit and four-bit code. -/
theorem LinkFrequency_values (ext : Bool) (code : BitVec 4) :
    LinkFrequency.new ext (code.setWidth 8) = LinkFrequency.spec ext code := by
  revert ext code; decide +kernel

/-- C37: link frequency and error byte. -/
theorem linkFreqErr_layout (b : U8) : linkFreqErr b = (fld b 0 4, LinkError.spec b) := by
  bits_simp [linkFreqErr, LinkError.spec]

private theorem slave_eq (d : Bytes) (h : 26 ≤ d.length) :
    SlaveOrPrimaryInterface.ofBytes (d.take 26) = .ok (SlaveOrPrimaryInterface.spec d) := by
  unfold SlaveOrPrimaryInterface.ofBytes
  bytes_len [SlaveOrPrimaryInterface.spec, SlaveOrPrimaryCommand_layout, LinkControl_layout,
    LinkConfiguration_layout, RevisionId_layout, linkFreqErr_layout, LinkFrequencyCapability_layout,
    FeatureCapability_layout, ErrorHandling_layout, Nat.min_eq_left]

private theorem host_eq (d : Bytes) (h : 22 ≤ d.length) :
    HostOrSecondaryInterface.ofBytes (d.take 22) = .ok (HostOrSecondaryInterface.spec d) := by
  unfold HostOrSecondaryInterface.ofBytes
  bytes_len [HostOrSecondaryInterface.spec, HostOrSecondaryCommand_layout, LinkControl_layout,
    LinkConfiguration_layout, RevisionId_layout, linkFreqErr_layout, LinkFrequencyCapability_layout,
    FeatureCapability_layout, ErrorHandling_layout]

private theorem msi_flags (w : U16) :
    (runBits w (do
      let enabled ← bit
      let fixed ← bit
      skip 14
      return (enabled, fixed)) : Bool × Bool) = (flag w 0, flag w 1) := by bits_simp []

private theorem msi_eq (d : Bytes) (h : 10 ≤ d.length) :
    MsiMapping.ofBytes (d.take 10) = .ok (MsiMapping.spec d) := by
  unfold MsiMapping.ofBytes
  bytes_len [MsiMapping.spec, msi_flags]

private theorem type_eq (w : U16) :
    (runBits w (do skip 11; let t ← bits 5; return t) : U8) = fld w 11 5 := by bits_simp []

/-- C37: the block type is bits 15:11 of the first 16-bit word; each block is decoded from its
offsets, `Reserved` for every other code; failure exactly when the block does not fit; never a
panic. -/
theorem Hypertransport_bytes (d : Bytes) :
    Hypertransport.ofBytes d =
      if 2 ≤ d.length then blockSpec d (fld (rd16 d 0) 11 5) else .err .CapabilityType := by
  unfold Hypertransport.ofBytes
  by_cases h : 2 ≤ d.length
  · simp only [BP.head, le16_run, if_pos h, Option.map_some, Res.okOr_some, Res.bind_ok, type_eq]
    have hv : (fld (rd16 d 0) 11 5 : U8).toNat < 32 := by
      simp only [fld, BitVec.toNat_setWidth, BitVec.extractLsb'_toNat]; omega
    have hb : (fld (rd16 d 0) 11 5 : U8) = BitVec.ofNat 8 (fld (rd16 d 0) 11 5 : U8).toNat := by simp
    generalize (fld (rd16 d 0) 11 5 : U8).toNat = n at hv hb
    rw [hb]
    have hs : (Res.okOr .SlaveOrPrimaryInterface (getTo d 26) >>= fun data =>
        SlaveOrPrimaryInterface.ofBytes data >>= fun x =>
          (pure (.SlaveOrPrimaryInterface x) : Res HypertransportError Hypertransport)) =
        if 26 ≤ d.length then .ok (.SlaveOrPrimaryInterface (.spec d))
        else .err .SlaveOrPrimaryInterface := by
      by_cases h26 : 26 ≤ d.length <;> bytes_len [slave_eq]
    have hh : (Res.okOr .HostOrSecondaryInterface (getTo d 22) >>= fun data =>
        HostOrSecondaryInterface.ofBytes data >>= fun x =>
          (pure (.HostOrSecondaryInterface x) : Res HypertransportError Hypertransport)) =
        if 22 ≤ d.length then .ok (.HostOrSecondaryInterface (.spec d))
        else .err .HostOrSecondaryInterface := by
      by_cases h22 : 22 ≤ d.length <;> bytes_len [host_eq]
    have hm : (Res.okOr .MsiMapping (getTo d 10) >>= fun data =>
        MsiMapping.ofBytes data >>= fun x =>
          (pure (.MsiMapping x) : Res HypertransportError Hypertransport)) =
        if 10 ≤ d.length then .ok (.MsiMapping (.spec d)) else .err .MsiMapping := by
      by_cases h10 : 10 ≤ d.length <;> bytes_len [msi_eq]
    have hr : (Res.okOr .RevisionId (Option.map Prod.fst (le8 d)) >>= fun data =>
          (pure (.RevisionId (RevisionId.ofU8 data)) : Res HypertransportError Hypertransport)) =
        .ok (.RevisionId (.spec (byteAt d 0))) := by
      bytes_len [RevisionId_layout]
    interval_cases n
    all_goals first | exact hs | exact hh | exact hm | exact hr | rfl
  · bytes_len []

/-- C37: converting a decoded block back to its type code gives the code it was decoded from, up to
the two insignificant bits of the slave and host types. -/
theorem Hypertransport_type_code (d : Bytes) (x : Hypertransport)
    (h : Hypertransport.ofBytes d = .ok x) :
    let t : U8 := fld (rd16 d 0) 11 5
    x.toU8 = if (fld t 3 2 : U8) = 0 then t &&& 0b11100#8 else t := by
  rw [Hypertransport_bytes] at h
  split at h
  · have hv : (fld (rd16 d 0) 11 5 : U8).toNat < 32 := by
      simp only [fld, BitVec.toNat_setWidth, BitVec.extractLsb'_toNat]; omega
    have hb : (fld (rd16 d 0) 11 5 : U8) = BitVec.ofNat 8 (fld (rd16 d 0) 11 5 : U8).toNat := by simp
    generalize (fld (rd16 d 0) 11 5 : U8).toNat = n at hv hb
    rw [hb] at h ⊢
    have hite : ∀ {c : Prop} [Decidable c] {y : Hypertransport} {e : HypertransportError},
        (if c then Res.ok y else Res.err e) = Res.ok x → x = y := by
      intro c _ y e hc
      split at hc
      · exact (Res.ok.inj hc).symm
      · cases hc
    interval_cases n
    all_goals first
      | (have := Res.ok.inj h; subst this; rfl)
      | (have := hite h; subst this; rfl)
  · cases h

/-- C37: MSI mapping base: upper dword, then bits 31:20 of the lower one. -/
theorem MsiMapping_base (m : MsiMapping) :
    m.base_address = cat m.base_address_upper
      (cat (fld m.base_address_lower 20 12 : BitVec 12) 0#20 : U32) := by
  unfold MsiMapping.base_address
  bv_bits []

/-- A HyperTransport MSI mapping block (Linux `lspci` style sample): enabled, fixed. -/
example : Hypertransport.ofBytes [0x03, 0xa8, 0, 0, 0xe0, 0xfe, 0, 0, 0, 0] =
    .ok (.MsiMapping ⟨true, true, 0xfee00000, 0⟩) := by
  rw [Hypertransport_bytes]; rfl
example : ∃ x, Hypertransport.ofBytes (List.replicate 26 0) = .ok (.SlaveOrPrimaryInterface x) :=
  ⟨_, rfl⟩

/-! ### C76 -/

theorem LinkWidth_bits3 {n : Nat} (a b : BitVec n) (lo : Nat) :
    LinkWidth.spec (fld a lo 3) = LinkWidth.spec (fld b lo 3) ↔
      ∀ i, i < 3 → a.getLsbD (lo + i) = b.getLsbD (lo + i) :=
  code_eq_iff _ 3 (by decide) (by decide +kernel) a b lo

/-- C76: `SlaveOrPrimaryCommand` registers decode to the same value exactly when they agree in
bits 0-12. -/
theorem SlaveOrPrimaryCommand_reads (a b : U16) :
    SlaveOrPrimaryCommand.ofU16 a = SlaveOrPrimaryCommand.ofU16 b ↔
      a &&& 0x1fff#16 = b &&& 0x1fff#16 := by
  reads [SlaveOrPrimaryCommand_layout, SlaveOrPrimaryCommand.spec, SlaveOrPrimaryCommand.mk.injEq]

/-- C76: `LinkControl` registers decode to the same value only if they are equal. -/
theorem LinkControl_reads (a b : U16) :
    LinkControl.ofU16 a = LinkControl.ofU16 b ↔
      a = b := by
  rw [eq_iff_bits a b]
  reads [LinkControl_layout, LinkControl.spec, LinkControl.mk.injEq]

/-- C76: `LinkConfiguration` registers decode to the same value only if they are equal. -/
theorem LinkConfiguration_reads (a b : U16) :
    LinkConfiguration.ofU16 a = LinkConfiguration.ofU16 b ↔
      a = b := by
  rw [eq_iff_bits a b]
  reads [LinkConfiguration_layout, LinkConfiguration.spec, LinkConfiguration.mk.injEq,
    LinkWidth_bits3]

/-- C76: `RevisionId` registers decode to the same value only if they are equal. -/
theorem RevisionId_reads (a b : U8) :
    RevisionId.ofU8 a = RevisionId.ofU8 b ↔
      a = b := by
  rw [eq_iff_bits a b]
  reads [RevisionId_layout, RevisionId.spec, RevisionId.mk.injEq]

/-- C76: `LinkFrequencyCapability` registers decode to the same value only if they are equal. -/
theorem LinkFrequencyCapability_reads (a b : U16) :
    LinkFrequencyCapability.ofU16 a = LinkFrequencyCapability.ofU16 b ↔
      a = b := by
  rw [eq_iff_bits a b]
  reads [LinkFrequencyCapability_layout, LinkFrequencyCapability.spec,
    LinkFrequencyCapability.mk.injEq]

/-- C76: `FeatureCapability` registers decode to the same value exactly when they agree in bits
0-6, 8-9. -/
theorem FeatureCapability_reads (a b : U16) :
    FeatureCapability.ofU16 a = FeatureCapability.ofU16 b ↔
      a &&& 0x037f#16 = b &&& 0x037f#16 := by
  reads [FeatureCapability_layout, FeatureCapability.spec, FeatureCapability.mk.injEq]

/-- C76: `ErrorHandling` registers decode to the same value only if they are equal. -/
theorem ErrorHandling_reads (a b : U16) :
    ErrorHandling.ofU16 a = ErrorHandling.ofU16 b ↔
      a = b := by
  rw [eq_iff_bits a b]
  reads [ErrorHandling_layout, ErrorHandling.spec, ErrorHandling.mk.injEq]

/-- C76: `HostOrSecondaryCommand` registers decode to the same value exactly when they agree in
bits 0-8, 10-12. -/
theorem HostOrSecondaryCommand_reads (a b : U16) :
    HostOrSecondaryCommand.ofU16 a = HostOrSecondaryCommand.ofU16 b ↔
      a &&& 0x1dff#16 = b &&& 0x1dff#16 := by
  reads [HostOrSecondaryCommand_layout, HostOrSecondaryCommand.spec,
    HostOrSecondaryCommand.mk.injEq]

/-- A reserved bit makes no difference to `SlaveOrPrimaryCommand`, a defined one does. -/
example : SlaveOrPrimaryCommand.ofU16 0x4164 = SlaveOrPrimaryCommand.ofU16 0xc164 ∧
    SlaveOrPrimaryCommand.ofU16 0x4164 ≠ SlaveOrPrimaryCommand.ofU16 0x4124 :=
  ⟨(SlaveOrPrimaryCommand_reads _ _).2 (by decide), fun h => absurd ((SlaveOrPrimaryCommand_reads _ _).1 h) (by decide)⟩

end Pcics.Hypertransport
