import Verif.Model.Common
/- Model of src/capabilities/enhanced_allocation.rs -/

namespace Pcics.EnhancedAllocation

/-- src/capabilities/enhanced_allocation.rs:198-205 -/
structure Type1SecondDw where
  fixed_secondary_bus_number : U8
  fixed_subordinate_bus_number : U8
  deriving DecidableEq, Repr

/-- src/capabilities/enhanced_allocation.rs:61-66 -/
inductive EnhancedAllocationError where
  | NumEntries
  | Type1SecondDw
  deriving DecidableEq, Repr

/-- src/capabilities/enhanced_allocation.rs:107-117 (with `new`) -/
structure EnhancedAllocationEntries where
  data : Bytes
  count : U8
  deriving DecidableEq, Repr

/-- src/capabilities/enhanced_allocation.rs:70-74 -/
structure EnhancedAllocation where
  num_entries : U8
  type_1_second_dw : Option Type1SecondDw
  entries : EnhancedAllocationEntries
  deriving DecidableEq, Repr

/-- src/capabilities/enhanced_allocation.rs:231-266 -/
inductive BarEquivalentIndicator where
  | Location10h
  | Location14h
  | Location18h
  | Location1Ch
  | Location20h
  | Location24h
  | BehindType1Function
  | EquivalentNotIndicated
  | ExpansionRomBaseAddress
  | VfBar0
  | VfBar1
  | VfBar2
  | VfBar3
  | VfBar4
  | VfBar5
  | Reserved
  deriving DecidableEq, Repr

/-- src/capabilities/enhanced_allocation.rs:295-325 -/
inductive ResourceDefinition where
  | MemorySpaceNonPrefetchable
  | MemorySpacePrefetchable
  | IoSpace
  | PfForVfMemorySpacePrefetchable
  | PfForVfMemorySpaceNonPrefetchable
  | Type1ForAbbMemoryNonPrefetchable
  | Type1ForAbbMemoryPrefetchable
  | Type1ForAbbIoSpace
  | Reserved (v : U8)
  | UnavailableMemorySpace
  | UnavailableIoSpace
  | Unavailable
  deriving DecidableEq, Repr

/-- src/capabilities/enhanced_allocation.rs:348-351 -/
inductive ResourceRangeAddress where
  | U32 (v : U32)
  | U64 (v : U64)
  deriving DecidableEq, Repr

/-- src/capabilities/enhanced_allocation.rs:208-227 -/
structure EnhancedAllocationEntry where
  entry_size : U8
  bar_equivalent_indicator : BarEquivalentIndicator
  primary_properties : ResourceDefinition
  secondary_properties : ResourceDefinition
  writable : Bool
  enable : Bool
  base : ResourceRangeAddress
  max_offset : ResourceRangeAddress
  deriving DecidableEq, Repr

/-- src/capabilities/enhanced_allocation.rs:268-290 -/
def BarEquivalentIndicator.ofU8 {ε : Type} (b : U8) : Res ε BarEquivalentIndicator :=
  match b.toNat with
  | 0x0 => .ok .Location10h
  | 0x1 => .ok .Location14h
  | 0x2 => .ok .Location18h
  | 0x3 => .ok .Location1Ch
  | 0x4 => .ok .Location20h
  | 0x5 => .ok .Location24h
  | 0x6 => .ok .BehindType1Function
  | 0x7 => .ok .EquivalentNotIndicated
  | 0x8 => .ok .ExpansionRomBaseAddress
  | 0x9 => .ok .VfBar0
  | 0xA => .ok .VfBar1
  | 0xB => .ok .VfBar2
  | 0xC => .ok .VfBar3
  | 0xD => .ok .VfBar4
  | 0xE => .ok .VfBar5
  | 0xF => .ok .Reserved
  | _ => .panic

/-- src/capabilities/enhanced_allocation.rs:327-344 -/
def ResourceDefinition.ofU8 (b : U8) : ResourceDefinition :=
  match b.toNat with
  | 0x00 => .MemorySpaceNonPrefetchable
  | 0x01 => .MemorySpacePrefetchable
  | 0x02 => .IoSpace
  | 0x03 => .PfForVfMemorySpacePrefetchable
  | 0x04 => .PfForVfMemorySpaceNonPrefetchable
  | 0x05 => .Type1ForAbbMemoryNonPrefetchable
  | 0x06 => .Type1ForAbbMemoryPrefetchable
  | 0x07 => .Type1ForAbbIoSpace
  | 0xFD => .UnavailableMemorySpace
  | 0xFE => .UnavailableIoSpace
  | 0xFF => .Unavailable
  | _ => .Reserved b

/-- src/capabilities/enhanced_allocation.rs:77-103; of the header only the layout kind is used. -/
def EnhancedAllocation.tryNew (slice : Bytes) (is_bridge : Bool) :
    Res EnhancedAllocationError EnhancedAllocation :=
  match slice with
  | num_entries :: _ :: slice =>
    let num_entries := num_entries &&& 0x3f#8
    if is_bridge then
      match slice with
      | sec :: sub :: _ :: _ :: slice =>
        .ok {
          num_entries := num_entries
          type_1_second_dw := some {
            fixed_secondary_bus_number := sec
            fixed_subordinate_bus_number := sub }
          entries := { data := slice, count := num_entries } }
      | _ => .err .NumEntries
    else
      .ok {
        num_entries := num_entries
        type_1_second_dw := none
        entries := { data := slice, count := num_entries } }
  | _ => .err .NumEntries

/-- src/capabilities/enhanced_allocation.rs:133-142, 183-190: fields of the first dword of an
entry; `base` and `max_offset` are filled in by `next`. -/
def EnhancedAllocationEntry.ofU32 {ε : Type} (first_dw : U32) (base max_offset : ResourceRangeAddress) :
    Res ε EnhancedAllocationEntry := runBits first_dw do
  let entry_size ← bits 3
  skip 1
  let bar_equivalent_indicator ← bits 4
  let primary_properties ← bits 8
  let secondary_properties ← bits 8
  skip 6
  let writable ← bit
  let enable ← bit
  return do
    let bar_equivalent_indicator ← BarEquivalentIndicator.ofU8 bar_equivalent_indicator
    return {
      entry_size := entry_size
      bar_equivalent_indicator := bar_equivalent_indicator
      primary_properties := ResourceDefinition.ofU8 primary_properties
      secondary_properties := ResourceDefinition.ofU8 secondary_properties
      writable := writable
      enable := enable
      base := base
      max_offset := max_offset }

/-- src/capabilities/enhanced_allocation.rs:145-171: one range address; `low` is the low dword with
bits 1:0 already cleared (base) or set (max offset), `is_64` bit 1 of the register. -/
def rangeAddress (is_64 : Bool) (low : U32) (slice : Bytes) :
    Option (ResourceRangeAddress × Bytes) :=
  if is_64 then
    match le32 slice with
    | some (head, tail) => some (.U64 ((head.setWidth 64 <<< 32) ||| low.setWidth 64), tail)
    | none => none
  else some (.U32 low, slice)

/-- src/capabilities/enhanced_allocation.rs:122-193; `real` is the Cargo feature
`caps_ea_real_entry_size` (off by default).  `?` returns `None` keeping the state changed so far. -/
def EnhancedAllocationEntries.next (real : Bool) (s : EnhancedAllocationEntries) :
    Res Unit (Option EnhancedAllocationEntry × EnhancedAllocationEntries) :=
  if s.count = 0 then .ok (none, s)
  else
    match (do
      let first_dw ← le32
      let base_lo ← le32
      let max_offset_lo ← le32
      return (first_dw, base_lo, max_offset_lo) : BP (U32 × U32 × U32)) s.data with
    | none => .ok (none, s)
    | some ((first_dw, base_lo, max_offset_lo), slice) =>
      let s := { s with count := s.count - 1 }
      match rangeAddress (base_lo &&& 0b10#32 != 0) (base_lo &&& ~~~0b11#32) slice with
      | none => .ok (none, s)
      | some (base, slice) =>
        match rangeAddress (max_offset_lo &&& 0b10#32 != 0) (max_offset_lo ||| 0b11#32) slice with
        | none => .ok (none, s)
        | some (max_offset, slice) => do
          let entry ← EnhancedAllocationEntry.ofU32 first_dw base max_offset
          if real then
            .ok (some entry, { s with data := slice })
          else
            let next_entry_start := (entry.entry_size.toNat + 1) * 4
            match getFrom s.data next_entry_start with
            | none => .ok (none, s)
            | some data => .ok (some entry, { s with data := data })

/-- Collecting: `next` until `None`, at most `fuel` times. -/
def EnhancedAllocationEntries.collect (real : Bool) :
    Nat → EnhancedAllocationEntries → Res Unit (List EnhancedAllocationEntry)
  | 0, _ => .ok []
  | fuel + 1, s => do
    let (e, s) ← s.next real
    match e with
    | none => return []
    | some e =>
      let es ← collect real fuel s
      return e :: es

end Pcics.EnhancedAllocation
