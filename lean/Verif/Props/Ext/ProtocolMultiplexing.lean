import Verif.Lemmas.Reads
import Verif.Spec.Ext.ProtocolMultiplexing
import Verif.Lemmas.Tactics
import Verif.Lemmas.Bv
import Verif.Lemmas.Iter
/- Properties of src/extended_capabilities/protocol_multiplexing.rs -/

namespace Pcics.ProtocolMultiplexing
open Spec

/-- C62: every field of `PmuxSupportedLinkSpeeds` is at its bit position. -/
theorem PmuxSupportedLinkSpeeds_layout (w : U8) :
    PmuxSupportedLinkSpeeds.ofU8 w = PmuxSupportedLinkSpeeds.spec w := by
  bits_simp [PmuxSupportedLinkSpeeds.ofU8, PmuxSupportedLinkSpeeds.spec]

/-- C62: every field of `PmuxCapability` is at its bit position. -/
theorem PmuxCapability_layout (w : U32) :
    PmuxCapability.ofU32 w = PmuxCapability.spec w := by
  bits_simp [PmuxCapability.ofU32, PmuxCapability.spec, PmuxSupportedLinkSpeeds_layout]

/-- C62: every field of `PmuxControl` is at its bit position. -/
theorem PmuxControl_layout (w : U32) :
    PmuxControl.ofU32 w = PmuxControl.spec w := by
  bits_simp [PmuxControl.ofU32, PmuxControl.spec]

/-- C62: every field of `PmuxStatus` is at its bit position. -/
theorem PmuxStatus_layout (w : U32) :
    PmuxStatus.ofU32 w = PmuxStatus.spec w := by
  bits_simp [PmuxStatus.ofU32, PmuxStatus.spec]

/-- C62: the structure is decoded exactly when the 16 fixed bytes and the whole announced array are
there; otherwise the error tells what is missing. -/
theorem ProtocolMultiplexing_bytes (d : Bytes) :
    ProtocolMultiplexing.ofBytes d =
      if d.length < 16 then .err .Mandatory
      else if d.length < 16 + arrayBytes d then
        .err (.PmuxProtocolArray (arrayBytes d) (d.length - 16))
      else .ok (ProtocolMultiplexing.spec d) := by
  by_cases h4 : 4 ≤ d.length
  case neg =>
    have h : d.length < 16 := by omega
    rw [if_pos h]
    bytes_len [ProtocolMultiplexing.ofBytes, Option.getD_none, List.length_nil]
  by_cases h : d.length < 16
  · rw [if_pos h]
    bytes_len [ProtocolMultiplexing.ofBytes, Option.getD_some]
  rw [if_neg h]
  bytes_len [ProtocolMultiplexing.ofBytes, Option.getD_some, PmuxCapability_layout,
    PmuxControl_layout, PmuxStatus_layout]
  have e : (PmuxCapability.spec (rd32 d 4)).pmux_protocol_array_size.toNat * 4 = arrayBytes d :=
    Nat.mul_comm _ _
  rw [e]
  by_cases hl : d.length < 16 + arrayBytes d
  · have h' : ¬ arrayBytes d ≤ d.length - 16 := by omega
    simp only [h', hl, if_true, if_false]
  · have h' : arrayBytes d ≤ d.length - 16 := by omega
    simp only [h', hl, if_true, if_false]
    rfl

theorem pmux_next_none (c : Bytes) (h : c.length < 4) : PmuxProtocolArray.next ⟨c⟩ = none := by
  match c, h with
  | [], _ => rfl
  | [_], _ => rfl
  | [_, _], _ => rfl
  | [_, _, _], _ => rfl

theorem pmux_next_some (c : Bytes) (h : 4 ≤ c.length) :
    PmuxProtocolArray.next ⟨c⟩ = some (⟨rd16 c 0, rd16 c 2⟩, ⟨c.drop 4⟩) := by
  have hne : c ≠ [] := by rintro rfl; simp at h
  simp only [PmuxProtocolArray.next, chunk_ne hne, Option.bind_eq_bind, Option.bind_some]
  bytes_len []

/-- C62: the entries of a byte string are its complete dwords, each split in Protocol and Authority
ID. -/
theorem PmuxProtocolArray_items (k : Nat) (c : Bytes) :
    takeIter PmuxProtocolArray.next k (PmuxProtocolArray.new c) =
      (entries c (c.length / 4)).take k := by
  rw [PmuxProtocolArray.new, takeIter_pieces PmuxProtocolArray.next (fun c => ⟨c⟩) 4 (by decide) _
    pmux_next_none pmux_next_some]
  simp only [entries, rd16_drop, Nat.add_zero]

/-- C62: the array of a decoded capability has as many entries as announced, from offset 16 on. -/
theorem ProtocolMultiplexing_entries (d : Bytes) (s : ProtocolMultiplexing)
    (hs : ProtocolMultiplexing.ofBytes d = .ok s) (k : Nat) :
    takeIter PmuxProtocolArray.next k s.pmux_protocol_array =
      (entries (d.drop 16) (fld (rd32 d 4) 0 6 : U8).toNat).take k := by
  rw [ProtocolMultiplexing_bytes] at hs
  split at hs
  · cases hs
  split at hs
  · cases hs
  obtain rfl := Res.ok.inj hs
  have hl : ((d.drop 16).take (arrayBytes d)).length / 4 = (fld (rd32 d 4) 0 6 : U8).toNat := by
    rw [List.length_take, List.length_drop]
    simp only [arrayBytes] at *
    omega
  have := PmuxProtocolArray_items k ((d.drop 16).take (arrayBytes d))
  rw [hl] at this
  refine Eq.trans this ?_
  congr 1
  apply List.map_congr_left
  intro i hi
  have := List.mem_range.1 hi
  have : arrayBytes d = 4 * (fld (rd32 d 4) 0 6 : U8).toNat := rfl
  rw [rd16_take _ _ _ (by omega), rd16_take _ _ _ (by omega)]

/-- C62: encoding an entry and decoding the bytes gives the entry back. -/
theorem PmuxProtocolArrayEntry_roundtrip (e : PmuxProtocolArrayEntry) :
    takeIter PmuxProtocolArray.next 2 (PmuxProtocolArray.new e.toBytes) = [e] := by
  rw [PmuxProtocolArray_items]
  have h (x : U16) : rd16 [x.setWidth 8, (x >>> 8).setWidth 8] 0 = x := by
    apply BitVec.eq_of_toNat_eq
    have := x.isLt
    simp [rd16, byteAt, Nat.shiftRight_eq_div_pow]
    omega
  have h1 : rd16 e.toBytes 0 = e.protocol_id := h _
  have h2 : rd16 e.toBytes 2 = e.authority_id := h _
  have hl : e.toBytes.length / 4 = 1 := by simp [PmuxProtocolArrayEntry.toBytes]
  rw [hl]
  simp [entries, h1, h2]

example : ∃ s, ProtocolMultiplexing.ofBytes
      [0x1a, 0, 1, 0, 2, 5, 0, 0, 0x3f, 1, 2, 3, 7, 0, 1, 0, 0x34, 0x12, 0x78, 0x56, 1, 0, 2, 0] =
        .ok s ∧
    s.pmux_capability = ⟨2, ⟨true, false, true, false⟩⟩ ∧ s.pmux_control = ⟨0x3f, 1, 2, 3⟩ ∧
    takeIter PmuxProtocolArray.next 9 s.pmux_protocol_array =
      [⟨0x1234, 0x5678⟩, ⟨1, 2⟩] := by
  refine ⟨_, rfl, ?_⟩; decide +kernel

/-! ### C76 -/

/-- C76: `PmuxSupportedLinkSpeeds` registers decode to the same value exactly when they agree in
bits 0-3. -/
theorem PmuxSupportedLinkSpeeds_reads (a b : U8) :
    PmuxSupportedLinkSpeeds.ofU8 a = PmuxSupportedLinkSpeeds.ofU8 b ↔
      a &&& 0x0f#8 = b &&& 0x0f#8 := by
  reads [PmuxSupportedLinkSpeeds_layout, PmuxSupportedLinkSpeeds.spec,
    PmuxSupportedLinkSpeeds.mk.injEq]

/-- C76: `PmuxCapability` registers decode to the same value exactly when they agree in bits 0-5,
8-11. -/
theorem PmuxCapability_reads (a b : U32) :
    PmuxCapability.ofU32 a = PmuxCapability.ofU32 b ↔
      a &&& 0x00000f3f#32 = b &&& 0x00000f3f#32 := by
  reads [PmuxCapability_layout, PmuxCapability.spec, PmuxCapability.mk.injEq,
    PmuxSupportedLinkSpeeds.spec, PmuxSupportedLinkSpeeds.mk.injEq]

/-- C76: `PmuxControl` registers decode to the same value exactly when they agree in bits 0-5,
8-13, 16-21, 24-29. -/
theorem PmuxControl_reads (a b : U32) :
    PmuxControl.ofU32 a = PmuxControl.ofU32 b ↔
      a &&& 0x3f3f3f3f#32 = b &&& 0x3f3f3f3f#32 := by
  reads [PmuxControl_layout, PmuxControl.spec, PmuxControl.mk.injEq]

/-- C76: `PmuxStatus` registers decode to the same value exactly when they agree in bits 0-2,
8-10, 16-18, 24-26. -/
theorem PmuxStatus_reads (a b : U32) :
    PmuxStatus.ofU32 a = PmuxStatus.ofU32 b ↔
      a &&& 0x07070707#32 = b &&& 0x07070707#32 := by
  reads [PmuxStatus_layout, PmuxStatus.spec, PmuxStatus.mk.injEq]

/-- A reserved bit makes no difference to `PmuxSupportedLinkSpeeds`, a defined one does. -/
example : PmuxSupportedLinkSpeeds.ofU8 0x1c = PmuxSupportedLinkSpeeds.ofU8 0x9c ∧
    PmuxSupportedLinkSpeeds.ofU8 0x1c ≠ PmuxSupportedLinkSpeeds.ofU8 0x18 :=
  ⟨(PmuxSupportedLinkSpeeds_reads _ _).2 (by decide), fun h => absurd ((PmuxSupportedLinkSpeeds_reads _ _).1 h) (by decide)⟩

end Pcics.ProtocolMultiplexing
