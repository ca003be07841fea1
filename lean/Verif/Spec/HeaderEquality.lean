import Verif.Spec.Bar
import Verif.Spec.Header
/- What of two dumps is the same when the headers decoded from them compare equal -/

namespace Pcics.Header
open Spec

/-- The bytes from `lo` to before `hi` are the same. -/
def sameAt (d d' : Bytes) (lo hi : Nat) : Prop := ∀ i, i < hi → lo ≤ i → byteAt d i = byteAt d' i

/-- The `n` base address registers are the same as far as they are compared. -/
def sameBars (d d' : Bytes) (n : Nat) : Prop :=
  ∀ k, k < n → compared (rd32s d 0x10 n) k = compared (rd32s d' 0x10 n) k

/-- Registers of a type 0 header: the base addresses, then everything up to the capabilities pointer,
of which the two low bits are reserved, then everything from the interrupt line on. -/
def sameNormal (d d' : Bytes) : Prop :=
  sameBars d d' 6 ∧ sameAt d d' 0x28 0x34 ∧ byteAt d 0x34 &&& 0xfc#8 = byteAt d' 0x34 &&& 0xfc#8 ∧
    sameAt d d' 0x3c 0x40

/-- Registers of a type 1 header. The upper halves of a window count only when both its ends say that
they are there; four bits of the bridge control are reserved. -/
def sameBridge (d d' : Bytes) : Prop :=
  sameBars d d' 2 ∧ sameAt d d' 0x18 0x28 ∧
    ((fld (byteAt d 0x1c) 0 4 : U8) = 1 ∧ (fld (byteAt d 0x1d) 0 4 : U8) = 1 →
      sameAt d d' 0x30 0x34) ∧
    ((fld (byteAt d 0x24) 0 4 : U8) = 1 ∧ (fld (byteAt d 0x26) 0 4 : U8) = 1 →
      sameAt d d' 0x28 0x30) ∧
    byteAt d 0x34 &&& 0xfc#8 = byteAt d' 0x34 &&& 0xfc#8 ∧ sameAt d d' 0x38 0x3e ∧
    rd16 d 0x3e &&& 0x0fff#16 = rd16 d' 0x3e &&& 0x0fff#16

/-- An I/O window of a type 2 header at `lo`: base, then limit without its two low bits, the upper
halves unless the base says that the window has 16 address bits. -/
def sameCardbusWindow (d d' : Bytes) (lo : Nat) : Prop :=
  rd16 d lo = rd16 d' lo ∧ rd16 d (lo + 4) &&& 0xfffc#16 = rd16 d' (lo + 4) &&& 0xfffc#16 ∧
    ((fld (rd16 d lo) 0 2 : U8) ≠ 0 →
      rd16 d (lo + 2) = rd16 d' (lo + 2) ∧ rd16 d (lo + 6) = rd16 d' (lo + 6))

/-- Registers of a type 2 header. -/
def sameCardbus (d d' : Bytes) : Prop :=
  sameBars d d' 1 ∧ byteAt d 0x14 &&& 0xfc#8 = byteAt d' 0x14 &&& 0xfc#8 ∧ sameAt d d' 0x16 0x2c ∧
    sameCardbusWindow d d' 0x2c ∧ sameCardbusWindow d d' 0x34 ∧ sameAt d d' 0x3c 0x3e ∧
    rd16 d 0x3e &&& 0x07ef#16 = rd16 d' 0x3e &&& 0x07ef#16

/-- The whole header: the first 15 bytes, BIST without its two reserved bits, and the registers of
the layout. -/
def sameHeader (d d' : Bytes) : Prop :=
  sameAt d d' 0 0x0f ∧ byteAt d 0x0f &&& 0xcf#8 = byteAt d' 0x0f &&& 0xcf#8 ∧
    (headerTypeCode d = 0 → sameNormal d d') ∧ (headerTypeCode d = 1 → sameBridge d d') ∧
    (headerTypeCode d = 2 → sameCardbus d d')

/-- A header type without its base addresses. -/
def HeaderType.withoutBars : HeaderType → HeaderType
  | .Normal v => .Normal { v with base_addresses := .new [] }
  | .Bridge v => .Bridge { v with base_addresses := .new [] }
  | .Cardbus v => .Cardbus { v with base_addresses := .new [] }
  | .Reserved v => .Reserved v

/-- The base addresses of a header type. -/
def HeaderType.bars : HeaderType → BaseAddresses
  | .Normal v => v.base_addresses
  | .Bridge v => v.base_addresses
  | .Cardbus v => v.base_addresses
  | .Reserved _ => .new []

end Pcics.Header
