import Verif.Lemmas.Reads
import Verif.Spec.Ext.Multicast
import Verif.Lemmas.Tactics
import Verif.Lemmas.Bv
/- Properties of src/extended_capabilities/multicast.rs -/

namespace Pcics.Multicast
open Spec

/-- C64: every field of `MulticastCapability` is at its bit position. -/
theorem MulticastCapability_layout (w : U16) :
    MulticastCapability.ofU16 w = MulticastCapability.spec w := by
  bits_simp [MulticastCapability.ofU16, MulticastCapability.spec]

/-- C64: every field of `MulticastControl` is at its bit position. -/
theorem MulticastControl_layout (w : U16) :
    MulticastControl.ofU16 w = MulticastControl.spec w := by
  bits_simp [MulticastControl.ofU16, MulticastControl.spec]

/-- C64: every field of `McBaseAddress` is at its bit position. -/
theorem McBaseAddress_layout (w : U64) :
    McBaseAddress.ofU64 w = McBaseAddress.spec w := by
  have h : (fld w 12 52 : U64) <<< 12 = cat (fld w 12 52 : BitVec 52) (0 : BitVec 12) := by
    bv_bits []
  bits_simp [McBaseAddress.ofU64, McBaseAddress.spec]
  simpa [fld_eq] using h

/-- C64: every field of `McOverlayBar` is at its bit position. -/
theorem McOverlayBar_layout (w : U64) :
    McOverlayBar.ofU64 w = McOverlayBar.spec w := by
  have h : (fld w 6 58 : U64) <<< 6 = cat (fld w 6 58 : BitVec 58) (0 : BitVec 6) := by
    bv_bits []
  bits_simp [McOverlayBar.ofU64, McOverlayBar.spec]
  simpa [fld_eq] using h

/-- C64: the structure is decoded exactly when 40 bytes are there, every field from its offset; the
overlay register exactly when all of its 8 bytes are there. -/
theorem Multicast_bytes (d : Bytes) :
    Multicast.ofBytes d =
      if 40 ≤ d.length then .ok (Multicast.spec d)
      else .err { name := "Multicast", size := 0x30 } := by
  have hc (lo hi : U32) : lo.setWidth 64 ||| hi.setWidth 64 <<< 32 = (cat hi lo : U64) := by
    bv_bits []
  by_cases h : 40 ≤ d.length
  · by_cases h' : 48 ≤ d.length
    · bytes_len [Multicast.ofBytes, Multicast.spec, MulticastCapability_layout,
        MulticastControl_layout, McBaseAddress_layout, McOverlayBar_layout, hc, rd64_cat]
    · bytes_len [Multicast.ofBytes, Multicast.spec, MulticastCapability_layout,
        MulticastControl_layout, McBaseAddress_layout, McOverlayBar_layout, hc, rd64_cat]
  · bytes_len [Multicast.ofBytes]

example : ∃ s, Multicast.ofBytes
      ([0x12, 0, 1, 0, 0x3f, 0x85, 7, 0x80, 0x0c, 0x10, 0, 0, 1, 0, 0, 0] ++
        List.replicate 24 0x11 ++ [0x0a, 0x11, 0x22, 0x33, 0x44, 0x55, 0x66, 0x77]) = .ok s ∧
    s.multicast_capability = ⟨0x3f, 5, true⟩ ∧ s.multicast_control = ⟨7, true⟩ ∧
    s.mc_base_address = ⟨12, 0x100001000⟩ ∧
    s.mc_overlay_bar = some ⟨10, 0x7766554433221100⟩ := by
  refine ⟨_, rfl, ?_⟩; decide +kernel

/-! ### C76 -/

/-- C76: `MulticastCapability` registers decode to the same value exactly when they agree in bits
0-5, 8-13, 15. -/
theorem MulticastCapability_reads (a b : U16) :
    MulticastCapability.ofU16 a = MulticastCapability.ofU16 b ↔
      a &&& 0xbf3f#16 = b &&& 0xbf3f#16 := by
  reads [MulticastCapability_layout, MulticastCapability.spec, MulticastCapability.mk.injEq]

/-- C76: `MulticastControl` registers decode to the same value exactly when they agree in bits
0-5, 15. -/
theorem MulticastControl_reads (a b : U16) :
    MulticastControl.ofU16 a = MulticastControl.ofU16 b ↔
      a &&& 0x803f#16 = b &&& 0x803f#16 := by
  reads [MulticastControl_layout, MulticastControl.spec, MulticastControl.mk.injEq]

/-- C76: `McBaseAddress` registers decode to the same value exactly when they agree in bits 0-5,
12-63. -/
theorem McBaseAddress_reads (a b : U64) :
    McBaseAddress.ofU64 a = McBaseAddress.ofU64 b ↔
      a &&& 0xfffffffffffff03f#64 = b &&& 0xfffffffffffff03f#64 := by
  reads [McBaseAddress_layout, McBaseAddress.spec, McBaseAddress.mk.injEq, cat_zero_eq_iff]

/-- C76: `McOverlayBar` registers decode to the same value only if they are equal. -/
theorem McOverlayBar_reads (a b : U64) :
    McOverlayBar.ofU64 a = McOverlayBar.ofU64 b ↔
      a = b := by
  rw [eq_iff_bits a b]
  reads [McOverlayBar_layout, McOverlayBar.spec, McOverlayBar.mk.injEq, cat_zero_eq_iff]

/-- A reserved bit makes no difference to `MulticastCapability`, a defined one does. -/
example : MulticastCapability.ofU16 0xec1d = MulticastCapability.ofU16 0xac1d ∧
    MulticastCapability.ofU16 0xec1d ≠ MulticastCapability.ofU16 0xed1d :=
  ⟨(MulticastCapability_reads _ _).2 (by decide), fun h => absurd ((MulticastCapability_reads _ _).1 h) (by decide)⟩

end Pcics.Multicast
