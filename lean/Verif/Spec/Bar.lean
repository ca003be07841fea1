import Verif.Model.Header
import Verif.Spec
/- Specification of base address registers (PCI Local Bus). -/

namespace Pcics.Header
open Spec

/-- A memory BAR of type 10b: occupies two slots. -/
def is64 (w : U32) : Bool := !flag w 0 && decide ((fld w 1 2 : U8) = 2)

/-- Slot `r` holds the upper half of the 64-bit BAR in slot `r - 1`. -/
def isUpper (data : List U32) : Nat → Bool
  | 0 => false
  | r + 1 => !isUpper data r && is64 (data.getD r 0)

/-- Meaning of the register `w`, `upper` being the register in the following slot, if any. -/
def barKind (w : U32) (upper : Option U32) : BaseAddressType :=
  if flag w 0 then .IoSpace ((fld w 2 30 : U32) <<< 2)
  else
    pick (fld w 1 2 : U8)
      [(0, .MemorySpace32 (flag w 3) ((fld w 4 28 : U32) <<< 4)),
       (1, .MemorySpaceBelow1M (flag w 3) ((fld w 4 28 : U32) <<< 4)),
       (2, match upper with
         | some u => .MemorySpace64 (flag w 3) (cat u ((fld w 4 28 : U32) <<< 4))
         | none => .MemorySpace64Broken (flag w 3))]
      (.MemorySpaceReserved (flag w 3) ((fld w 4 28 : U32) <<< 4))

/-- What slot `r` contributes: nothing if it is zero or an upper half. -/
def barAt (data : List U32) (r : Nat) : Option BaseAddress :=
  if isUpper data r ∨ data.getD r 0 = 0 then none
  else some { region := r, base_address_type := barKind (data.getD r 0) data[r + 1]? }

/-- All base addresses of the registers `data`. -/
def barsOf (data : List U32) : List BaseAddress := (List.range data.length).filterMap (barAt data)

/-- A register value whose BAR keeps all information: not an I/O BAR with reserved bit 1 set, not of
the reserved memory type 11b, not a 64-bit BAR without a second slot. -/
def representable (data : List U32) (r : Nat) : Prop :=
  isUpper data r ∨
    (flag (data.getD r 0) 0 → flag (data.getD r 0) 1 = false) ∧
    (¬ flag (data.getD r 0) 0 → (fld (data.getD r 0) 1 2 : U8) ≠ 3) ∧
    (is64 (data.getD r 0) → r + 1 < data.length)

/-- What slot `k` holds after collecting the BARs of `data` back to registers: reserved bit 1 of an
I/O BAR is cleared; a BAR of reserved type, or a 64-bit BAR without a second slot, is dropped. -/
def stored (data : List U32) (k : Nat) : U32 :=
  let w := data.getD k 0
  if isUpper data k then w
  else if flag w 0 then w &&& ~~~0b10#32
  else if (fld w 1 2 : U8) = 3 then 0
  else if is64 w ∧ data.length ≤ k + 1 then 0
  else w

/-- What of slot `k` a comparison of the BARs of `data` takes into account: the whole register,
without the reserved bit 1 of an I/O BAR and without the address of a 64-bit BAR that has no second
slot. -/
def compared (data : List U32) (k : Nat) : U32 :=
  let w := data.getD k 0
  if isUpper data k then w
  else if flag w 0 then w &&& 0xfffffffd#32
  else if is64 w ∧ data.length ≤ k + 1 then w &&& 0xf#32
  else w

/-- Number of slots a base address occupies. -/
def BaseAddress.slots (b : BaseAddress) : Nat :=
  match b.base_address_type with
  | .MemorySpace64 _ _ => 2
  | _ => 1

/-- A base address registers can hold: aligned, of a defined kind, and not all zero. -/
def BaseAddressType.proper : BaseAddressType → Prop
  | .IoSpace a => (fld a 0 2 : U8) = 0
  | .MemorySpace32 p a => (fld a 0 4 : U8) = 0 ∧ (p = true ∨ a ≠ 0)
  | .MemorySpaceBelow1M _ a => (fld a 0 4 : U8) = 0
  | .MemorySpace64 _ a => (fld a 0 4 : U8) = 0
  | .MemorySpace64Broken _ => False
  | .MemorySpaceReserved _ _ => False

/-- A list of base addresses `n` registers can hold: each is proper and inside, and they are in slot
order without overlap. -/
def fits (n : Nat) (items : List BaseAddress) : Prop :=
  (∀ b ∈ items, b.base_address_type.proper ∧ b.region + b.slots ≤ n) ∧
    items.Pairwise fun a b => a.region + a.slots ≤ b.region

/-- A memory register: the address from bit 4 on, the prefetchable bit 3, the type code in bits 2
and 1; bit 0 is zero. -/
def memoryRegister (address : U32) (prefetchable : Bool) (code : U32) : U32 :=
  (address <<< 4) ||| (if prefetchable then 1 <<< 3 else 0) ||| (code <<< 1)

/-- What is stored for a base address when there are `n` registers: slots with their new content. A
base address past the last slot goes to the last slot; nothing is stored for those without a defined
encoding. -/
def BaseAddress.writes (n : Nat) (b : BaseAddress) : List (Nat × U32) :=
  let slot := if b.region < n then b.region else n - 1
  match b.base_address_type with
  | .MemorySpace32 p a => [(slot, memoryRegister (fld a 4 28) p 0)]
  | .MemorySpaceBelow1M p a => [(slot, memoryRegister (fld a 4 28) p 1)]
  | .MemorySpace64 p a => [(slot, memoryRegister (fld a 4 28) p 2), (slot + 1, fld a 32 32)]
  | .IoSpace a => [(slot, ((fld a 2 30 : U32) <<< 2) ||| 1)]
  | .MemorySpaceReserved _ _ => []
  | .MemorySpace64Broken _ => []

/-- What the last of the writes to slot `j` left there. -/
def lastWrite (j : Nat) (ws : List (Nat × U32)) : Option U32 :=
  ((ws.filter fun w => w.1 = j).getLast?).map (·.2)

end Pcics.Header
