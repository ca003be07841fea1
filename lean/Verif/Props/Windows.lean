import Verif.Lemmas.Windows
/- Properties C09 and C88: the address windows of bridges (src/header.rs:491-573, 606-660). -/

namespace Pcics.Header
open Spec

/-- C09: window addresses are aligned: 4 KiB for I/O, 1 MiB for memory, whatever their width. -/
theorem bridge_windows_aligned (base limit : U8) (bu lu : U16) (mb ml : U16) (mbu mlu : U32) :
    (∀ b l, BridgeIoAddressRange.new base limit bu lu = .IoAddr16 b l →
      b.toNat % 2 ^ 12 = 0 ∧ l.toNat % 2 ^ 12 = 0) ∧
    (∀ b l, BridgeIoAddressRange.new base limit bu lu = .IoAddr32 b l →
      b.toNat % 2 ^ 12 = 0 ∧ l.toNat % 2 ^ 12 = 0) ∧
    (∀ b l, BridgePrefetchableMemory.new mb ml mbu mlu = .MemAddr32 b l →
      b.toNat % 2 ^ 20 = 0 ∧ l.toNat % 2 ^ 20 = 0) ∧
    (∀ b l, BridgePrefetchableMemory.new mb ml mbu mlu = .MemAddr64 b l →
      b.toNat % 2 ^ 20 = 0 ∧ l.toNat % 2 ^ 20 = 0) := by
  refine ⟨fun b l h => ?_, fun b l h => ?_, fun b l h => ?_, fun b l h => ?_⟩
  · have := io16_values h; omega
  · have := io32_values h; omega
  · have := mem32_values h; omega
  · have := mem64_values h; omega

/-- C88 (the code violates it): the last byte of the window of an I/O, prefetchable memory or CardBus
I/O window is forwarded, but is above the decoded limit. -/
theorem window_limit_too_low :
    (∃ base limit bu lu b l, BridgeIoAddressRange.new base limit bu lu = .IoAddr16 b l ∧
      ∃ x, Forwards 12 (base.toNat / 16) (limit.toNat / 16) x ∧ ¬ x ≤ l.toNat) ∧
    (∃ base limit bu lu b l, BridgePrefetchableMemory.new base limit bu lu = .MemAddr32 b l ∧
      ∃ x, Forwards 20 (base.toNat / 16) (limit.toNat / 16) x ∧ ¬ x ≤ l.toNat) ∧
    (∃ bl bu ll lu b l, IoAccessAddressRange.ofU16s bl bu ll lu = .Addr16Bit b l ∧
      ∃ x, Forwards 2 (bl.toNat / 4) (ll.toNat / 4) x ∧ ¬ x ≤ l.toNat) :=
  ⟨⟨0x30, 0x50, 0, 0, 0x3000, 0x5000, by decide, 0x5fff, by unfold Forwards; decide, by decide⟩,
   ⟨0x9000, 0x9ff0, 0, 0, 0x90000000, 0x9ff00000, by decide, 0x9fffffff,
     by unfold Forwards; decide, by decide⟩,
   ⟨0x1000, 0, 0x10fc, 0, 0x1000, 0x10fc, by decide, 0x10ff, by unfold Forwards; decide, by decide⟩⟩

/-- C88, the part that holds for I/O windows: an address is forwarded exactly when it is between the
decoded base and the end of the 4 KiB block the decoded limit begins. -/
theorem bridge_io_window_partial (base limit : U8) (bu lu : U16) :
    (∀ b l, BridgeIoAddressRange.new base limit bu lu = .IoAddr16 b l → ∀ x,
      Forwards 12 (base.toNat / 16) (limit.toNat / 16) x ↔ b.toNat ≤ x ∧ x ≤ l.toNat + 0xfff) ∧
    (∀ b l, BridgeIoAddressRange.new base limit bu lu = .IoAddr32 b l → ∀ x,
      Forwards 12 (bu.toNat * 16 + base.toNat / 16) (lu.toNat * 16 + limit.toNat / 16) x ↔
        b.toNat ≤ x ∧ x ≤ l.toNat + 0xfff) := by
  refine ⟨fun b l h x => ?_, fun b l h x => ?_⟩ <;> rw [forwards_iff]
  · have := io16_values h; constructor <;> rintro ⟨_, _⟩ <;> constructor <;> omega
  · have := io32_values h; constructor <;> rintro ⟨_, _⟩ <;> constructor <;> omega

/-- C88, the part that holds for prefetchable memory windows: the same with blocks of 1 MiB. -/
theorem bridge_prefetchable_window_partial (base limit : U16) (bu lu : U32) :
    (∀ b l, BridgePrefetchableMemory.new base limit bu lu = .MemAddr32 b l → ∀ x,
      Forwards 20 (base.toNat / 16) (limit.toNat / 16) x ↔ b.toNat ≤ x ∧ x ≤ l.toNat + 0xfffff) ∧
    (∀ b l, BridgePrefetchableMemory.new base limit bu lu = .MemAddr64 b l → ∀ x,
      Forwards 20 (bu.toNat * 4096 + base.toNat / 16) (lu.toNat * 4096 + limit.toNat / 16) x ↔
        b.toNat ≤ x ∧ x ≤ l.toNat + 0xfffff) := by
  refine ⟨fun b l h x => ?_, fun b l h x => ?_⟩ <;> rw [forwards_iff]
  · have := mem32_values h; constructor <;> rintro ⟨_, _⟩ <;> constructor <;> omega
  · have := mem64_values h; constructor <;> rintro ⟨_, _⟩ <;> constructor <;> omega

/-- C88, the part that holds for CardBus I/O windows: the same with blocks of four bytes. -/
theorem cardbus_io_window_partial (bl bu ll lu : U16) :
    (∀ b l, IoAccessAddressRange.ofU16s bl bu ll lu = .Addr16Bit b l → ∀ x,
      Forwards 2 (bl.toNat / 4) (ll.toNat / 4) x ↔ b.toNat ≤ x ∧ x ≤ l.toNat + 3) ∧
    (∀ b l, IoAccessAddressRange.ofU16s bl bu ll lu = .Addr32Bit b l → ∀ x,
      Forwards 2 (bu.toNat * 16384 + bl.toNat / 4) (lu.toNat * 16384 + ll.toNat / 4) x ↔
        b.toNat ≤ x ∧ x ≤ l.toNat + 3) := by
  refine ⟨fun b l h x => ?_, fun b l h x => ?_⟩ <;> rw [forwards_iff]
  · have := cardbus16_values h; constructor <;> rintro ⟨_, _⟩ <;> constructor <;> omega
  · have := cardbus32_values h; constructor <;> rintro ⟨_, _⟩ <;> constructor <;> omega

theorem forwards_nothing (s base limit : Nat) :
    (∀ x, ¬ Forwards s base limit x) ↔ limit < base := by
  constructor
  · intro hx
    have := hx (base * 2 ^ s)
    unfold Forwards at this
    rw [Nat.mul_div_cancel _ (Nat.two_pow_pos s)] at this
    omega
  · rintro h x ⟨_, _⟩
    omega

/-- C88: a decoded window of any kind forwards nothing exactly when its limit is below its base: an
enabled window and a window switched off the usual way (base above limit) are told apart by comparing
the two. -/
theorem bridge_window_empty_iff (base limit : U8) (bu lu : U16) (mbase mlimit : U16)
    (mbu mlu : U32) (bl bh ll lh : U16) :
    (∀ b l, BridgeIoAddressRange.new base limit bu lu = .IoAddr16 b l →
      ((∀ x, ¬ Forwards 12 (base.toNat / 16) (limit.toNat / 16) x) ↔ l.toNat < b.toNat)) ∧
    (∀ b l, BridgeIoAddressRange.new base limit bu lu = .IoAddr32 b l →
      ((∀ x, ¬ Forwards 12 (bu.toNat * 16 + base.toNat / 16) (lu.toNat * 16 + limit.toNat / 16) x) ↔
        l.toNat < b.toNat)) ∧
    (∀ b l, BridgePrefetchableMemory.new mbase mlimit mbu mlu = .MemAddr32 b l →
      ((∀ x, ¬ Forwards 20 (mbase.toNat / 16) (mlimit.toNat / 16) x) ↔ l.toNat < b.toNat)) ∧
    (∀ b l, BridgePrefetchableMemory.new mbase mlimit mbu mlu = .MemAddr64 b l →
      ((∀ x, ¬ Forwards 20 (mbu.toNat * 4096 + mbase.toNat / 16)
        (mlu.toNat * 4096 + mlimit.toNat / 16) x) ↔ l.toNat < b.toNat)) ∧
    (∀ b l, IoAccessAddressRange.ofU16s bl bh ll lh = .Addr16Bit b l →
      ((∀ x, ¬ Forwards 2 (bl.toNat / 4) (ll.toNat / 4) x) ↔ l.toNat < b.toNat)) ∧
    (∀ b l, IoAccessAddressRange.ofU16s bl bh ll lh = .Addr32Bit b l →
      ((∀ x, ¬ Forwards 2 (bh.toNat * 16384 + bl.toNat / 4) (lh.toNat * 16384 + ll.toNat / 4) x) ↔
        l.toNat < b.toNat)) := by
  simp only [forwards_nothing]
  refine ⟨fun b l h => ?_, fun b l h => ?_, fun b l h => ?_, fun b l h => ?_, fun b l h => ?_,
    fun b l h => ?_⟩
  · have := io16_values h; omega
  · have := io32_values h; omega
  · have := mem32_values h; omega
  · have := mem64_values h; omega
  · have := cardbus16_values h; omega
  · have := cardbus32_values h; omega

example : BridgeIoAddressRange.new 0x30 0x50 0 0 = .IoAddr16 0x3000 0x5000 ∧
    BridgeIoAddressRange.new 0x31 0x51 3 4 = .IoAddr32 0x33000 0x45000 ∧
    BridgeIoAddressRange.new 0xf0 0x00 0 0 = .IoAddr16 0xf000 0 ∧
    BridgePrefetchableMemory.new 0x9000 0x9ff0 1 2 = .MemAddr32 0x90000000 0x9ff00000 ∧
    BridgePrefetchableMemory.new 0x9001 0x9ff1 1 2 = .MemAddr64 0x190000000 0x29ff00000 ∧
    IoAccessAddressRange.ofU16s 0x1001 2 0x10fc 3 = .Addr32Bit 0x21000 0x310fc ∧
    Forwards 12 0x33 0x45 0x45fff := by
  unfold Forwards; decide

end Pcics.Header
