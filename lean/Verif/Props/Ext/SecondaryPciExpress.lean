import Verif.Lemmas.Reads
import Verif.Spec.Ext.SecondaryPciExpress
import Verif.Lemmas.Tactics
import Verif.Lemmas.Bv
import Verif.Lemmas.Iter
import Verif.Props.Cap.PciExpress
/- Properties of src/extended_capabilities/secondary_pci_express.rs -/

namespace Pcics.SecondaryPciExpress
open Spec
open PciExpress (LinkWidth ReceiverPresetHint SupportedLinkSpeedsVector TransmitterPreset ReceiverPresetHint_values TransmitterPreset_values)

/-- C55: every field of `LinkControl3` is at its bit position. -/
theorem LinkControl3_layout (w : U32) :
    LinkControl3.ofU32 w = LinkControl3.spec w := by
  bits_simp [LinkControl3.ofU32, LinkControl3.spec]

/-- C55: every field of `LaneEqualizationControl` is at its bit position. -/
theorem LaneEqualizationControl_layout (w : U16) :
    LaneEqualizationControl.ofU16 w = LaneEqualizationControl.spec w := by
  bits_simp [LaneEqualizationControl.ofU16, LaneEqualizationControl.spec, ReceiverPresetHint_values,
    TransmitterPreset_values]

/-- C55: the fixed part is decoded exactly when 8 bytes are there, every field from its offset. -/
theorem SecondaryPciExpress_bytes (d : Bytes) :
    SecondaryPciExpress.ofBytes d =
      if 8 ≤ d.length then .ok (SecondaryPciExpress.spec d)
      else .err { name := "Secondary PCI Express", size := 8 } := by
  by_cases h : 8 ≤ d.length
  · bytes_len [SecondaryPciExpress.ofBytes, SecondaryPciExpress.spec, LinkControl3_layout]
  · bytes_len [SecondaryPciExpress.ofBytes]

theorem lane_count (w : LinkWidth) : w.toU8.toNat = laneCount w := by cases w <;> rfl

theorem ecl_next_none (c : Bytes) (h : c.length < 2) :
    EqualizationControlLanes.next ⟨c⟩ = none := by
  match c, h with
  | [], _ => rfl
  | [_], _ => rfl

theorem ecl_next_some (c : Bytes) (h : 2 ≤ c.length) :
    EqualizationControlLanes.next ⟨c⟩ =
      some (LaneEqualizationControl.spec (rd16 c 0), ⟨c.drop 2⟩) := by
  match c, h with
  | a :: b :: r, _ =>
    simp only [EqualizationControlLanes.next, chunk_ne (List.cons_ne_nil _ _),
      Option.bind_eq_bind, Option.bind_some, List.take, LaneEqualizationControl_layout, rd16_append]
    rfl

theorem ecl_take (k : Nat) (c : Bytes) :
    takeIter EqualizationControlLanes.next k ⟨c⟩ = (lanes c (c.length / 2)).take k := by
  rw [takeIter_pieces EqualizationControlLanes.next (fun c => ⟨c⟩) 2 (by decide) _ ecl_next_none
    ecl_next_some]
  simp only [lanes, rd16_drop, Nat.add_zero]

/-- C55 (what is missing: it holds only when the capability has at least as many lane registers as
the link width asks for; see `equalization_control_lanes_panics`): the lanes for a link width are the
registers of lanes `0 .. width - 1`, in order and no others. -/
theorem equalization_control_lanes_partial {ε : Type} (d : Bytes) (s : SecondaryPciExpress)
    (hs : SecondaryPciExpress.ofBytes d = .ok s) (w : LinkWidth)
    (hw : 8 + 2 * laneCount w ≤ d.length) :
    ∃ it, (s.equalization_control_lanes w : Res ε _) = .ok it ∧
      ∀ k, takeIter EqualizationControlLanes.next k it =
        (lanes (d.drop 8) (laneCount w)).take k := by
  rw [← lane_count] at *
  rw [SecondaryPciExpress_bytes, if_pos (by omega)] at hs
  obtain rfl := Res.ok.inj hs
  refine ⟨⟨(d.drop 8).take (w.toU8.toNat * 2)⟩, ?_, fun k => ?_⟩
  · have e : getTo (SecondaryPciExpress.spec d).ecl_data (w.toU8.toNat * 2) =
        some ((d.drop 8).take (w.toU8.toNat * 2)) :=
      if_pos (by simp only [SecondaryPciExpress.spec, List.length_drop]; omega)
    simp only [SecondaryPciExpress.equalization_control_lanes, e]
    rfl
  · have hl : ((d.drop 8).take (w.toU8.toNat * 2)).length = 2 * w.toU8.toNat := by
      rw [List.length_take, List.length_drop]; omega
    rw [ecl_take, hl, Nat.mul_div_cancel_left _ (by decide)]
    congr 1
    apply List.map_congr_left
    intro i hi
    have := List.mem_range.1 hi
    rw [rd16_take _ _ _ (by omega)]

/-- C55 (the code violates it): asking for more lanes than the data has panics. -/
theorem equalization_control_lanes_panics {ε : Type} (d : Bytes) (s : SecondaryPciExpress)
    (hs : SecondaryPciExpress.ofBytes d = .ok s) (w : LinkWidth)
    (hw : d.length < 8 + 2 * laneCount w) :
    (s.equalization_control_lanes w : Res ε _) = .panic := by
  rw [← lane_count] at hw
  rw [SecondaryPciExpress_bytes] at hs
  by_cases h : 8 ≤ d.length
  · rw [if_pos h] at hs
    obtain rfl := Res.ok.inj hs
    have e : getTo (SecondaryPciExpress.spec d).ecl_data (w.toU8.toNat * 2) = none :=
      if_neg (by simp only [SecondaryPciExpress.spec, List.length_drop]; omega)
    simp only [SecondaryPciExpress.equalization_control_lanes, e]
  · rw [if_neg h] at hs; cases hs

example : ∃ s, SecondaryPciExpress.ofBytes
      [3, 0x0e, 0, 0, 0x0f, 0, 0, 0, 0x78, 0x27, 0x12, 0x34] = .ok s ∧
    (∃ it, (s.equalization_control_lanes .X2 : Res Unit _) = .ok it ∧
      takeIter EqualizationControlLanes.next 9 it =
        [⟨.P8, .Reserved, .P7, .Minus8dB⟩, ⟨.P2, .Minus7dB, .P4, .Minus9dB⟩]) ∧
    (s.equalization_control_lanes .X4 : Res Unit _) = .panic := by
  refine ⟨_, rfl, ⟨_, rfl, ?_⟩, rfl⟩; decide +kernel

/-! ### C76 -/

/-- C76: `LinkControl3` registers decode to the same value exactly when they agree in bits 0-1,
9-15. -/
theorem LinkControl3_reads (a b : U32) :
    LinkControl3.ofU32 a = LinkControl3.ofU32 b ↔
      a &&& 0x0000fe03#32 = b &&& 0x0000fe03#32 := by
  reads [LinkControl3_layout, LinkControl3.spec, LinkControl3.mk.injEq,
    SupportedLinkSpeedsVector.mk.injEq]

/-- C76: `LaneEqualizationControl` registers decode to the same value exactly when they agree in
bits 0-6, 8-14. -/
theorem LaneEqualizationControl_reads (a b : U16) :
    LaneEqualizationControl.ofU16 a = LaneEqualizationControl.ofU16 b ↔
      a &&& 0x7f7f#16 = b &&& 0x7f7f#16 := by
  reads [LaneEqualizationControl_layout, LaneEqualizationControl.spec,
    LaneEqualizationControl.mk.injEq, PciExpress.TransmitterPreset_bits4,
    PciExpress.ReceiverPresetHint_bits3]

/-- A reserved bit makes no difference to `LinkControl3`, a defined one does. -/
example : LinkControl3.ofU32 0xe6a16a3b = LinkControl3.ofU32 0x66a16a3b ∧
    LinkControl3.ofU32 0xe6a16a3b ≠ LinkControl3.ofU32 0xe6a1623b :=
  ⟨(LinkControl3_reads _ _).2 (by decide), fun h => absurd ((LinkControl3_reads _ _).1 h) (by decide)⟩

end Pcics.SecondaryPciExpress
