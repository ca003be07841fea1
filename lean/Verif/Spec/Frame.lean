import Verif.Spec.Capabilities
/- Which bytes a capability structure consists of (sizes as in the PCI specifications), for the
claim that a capability is decoded from these bytes only. -/

namespace Pcics
open Spec

/-- Both byte lists have at least `n` bytes and agree in the first `n`. -/
def agree (n : Nat) (d d' : Bytes) : Prop :=
  n ≤ d.length ∧ n ≤ d'.length ∧ ∀ i, i < n → byteAt d i = byteAt d' i

instance (n : Nat) (d d' : Bytes) : Decidable (agree n d d') := by unfold agree; infer_instance

/-- Bytes of the first `n` Enhanced Allocation entries. -/
def entriesSpan (real : Bool) : Nat → Bytes → Nat
  | 0, _ => 0
  | n + 1, d =>
    max (EnhancedAllocation.entryBytes d)
      (EnhancedAllocation.entryStep real d +
        entriesSpan real n (d.drop (EnhancedAllocation.entryStep real d)))

/-- PCI Express capability: version 2 and later structures have all registers; earlier ones only
those of the device type, in the order device, link, slot, root. -/
def pcieSize (d : Bytes) : Nat :=
  if 2 ≤ (fld (rd16 d 0) 0 4 : U8).toNat then 58
  else pick (fld (rd16 d 0) 4 4 : U8) [(0, 18), (1, 18), (4, 34), (5, 18), (6, 26), (7, 18), (8, 26),
    (9, 10), (10, 34)] 34

/-- AGP: revision 3 added registers. -/
def agpSize (d : Bytes) : Nat := if 3 ≤ (fld (rd16 d 0) 4 4 : U8).toNat then 32 else 10

def pciXSize (bridge : Bool) (d : Bytes) : Nat :=
  let ecc := pick (fld (rd16 d 0) 12 2 : U8) [(1, 16), (2, 16)] 0
  (if bridge then 14 else 6) + ecc

def hypertransportSize (d : Bytes) : Nat :=
  let t : U8 := fld (rd16 d 0) 11 5
  if (fld t 2 3 : U8) = 0 then 26 else if (fld t 2 3 : U8) = 1 then 22
  else if t = 0b10101 then 10 else 2

def enhancedAllocationSize (real bridge : Bool) (d : Bytes) : Nat :=
  let o := if bridge then 6 else 2
  o + entriesSpan real (fld (byteAt d 0) 0 6 : U8).toNat (d.drop o)

/-- Number of register bytes (after id and next pointer) the structure with capability id `id`
consists of, given its first bytes.  Structures without modelled registers count none. -/
def structSize (real : Bool) (h : Header.Header) (id : U8) (d : Bytes) : Nat :=
  pick id [(0x01, 6), (0x02, agpSize d), (0x03, 6), (0x04, 2),
    (0x05, MessageSignaledInterrups.MessageSignaledInterrups.specSize
      (flag (rd16 d 0) 7) (flag (rd16 d 0) 8)),
    (0x07, pciXSize (typeOne h) d), (0x08, hypertransportSize d),
    (0x09, max 1 ((byteAt d 0).toNat - 2)), (0x0a, 2), (0x0d, 6), (0x10, pcieSize d), (0x11, 10),
    (0x12, 6), (0x13, 4), (0x14, enhancedAllocationSize real (typeOne h) d), (0x15, 34)] 0

/-- What is needed for the decoder to stay within the structure: the code takes AGP registers of
revision 3 for any revision and wants slot registers of every PCI Express function. -/
def readSize (real : Bool) (h : Header.Header) (id : U8) (d : Bytes) : Nat :=
  max (structSize real h id d) (pick id [(0x02, 32), (0x10, 26)] 0)

/-- Same decoded kind.  An Enhanced Allocation capability keeps the rest of the region for its
iterator; two of them are the same if all else is equal and the iterators give the same entries. -/
def CapabilityKind.same (real : Bool) : CapabilityKind → CapabilityKind → Prop
  | .EnhancedAllocation a, .EnhancedAllocation b =>
    a.num_entries = b.num_entries ∧ a.type_1_second_dw = b.type_1_second_dw ∧
      ∀ fuel, a.entries.collect real fuel = b.entries.collect real fuel
  | a, b => a = b

/-- Same outcome: both decode to the same kind, or both fail in the same way. -/
def sameKind (real : Bool) : Res CapabilityError CapabilityKind →
    Res CapabilityError CapabilityKind → Prop
  | .ok a, .ok b => a.same real b
  | a, b => a = b

def sameItem (real : Bool) : Res CapabilityError Capability → Res CapabilityError Capability → Prop
  | .ok a, .ok b => a.pointer = b.pointer ∧ a.kind.same real b.kind
  | a, b => a = b

end Pcics
