import Verif.Model.Common
/- Model of src/extended_capabilities/resizable_bar.rs -/

namespace Pcics.ResizableBar

/-- src/extended_capabilities/resizable_bar.rs:86-93 -/
inductive ResizableBarError where
  | FirstEntry
  | NumberOfResizableBars (value : Nat)
  | ShortData
  deriving DecidableEq, Repr

/-- src/extended_capabilities/resizable_bar.rs:97-97; the bytes still to be cut into chunks of 8 -/
structure ResizableBar where
  val : Bytes
  deriving DecidableEq, Repr

/-- src/extended_capabilities/resizable_bar.rs:181-183 -/
structure ResizableBarCapability where
  support_map_from_1mb_to_128tb : U32
  deriving DecidableEq, Repr

/-- src/extended_capabilities/resizable_bar.rs:195-200 -/
structure ResizableBarControl where
  bar_index : U8
  number_of_resizable_bars : U8
  bar_size : U8
  support_map_from_256tb_to_8eb : U16
  deriving DecidableEq, Repr

/-- src/extended_capabilities/resizable_bar.rs:155-158 -/
structure ResizableBarEntry where
  capability : ResizableBarCapability
  control : ResizableBarControl
  deriving DecidableEq, Repr

/-- src/extended_capabilities/resizable_bar.rs:202-219 -/
def ResizableBarControl.ofU32 (w : U32) : ResizableBarControl := runBits w do
  let bar_index ← bits 3
  skip 2
  let number_of_resizable_bars ← bits 3
  let bar_size ← bits 6
  skip 2
  let support_map_from_256tb_to_8eb ← bits 16
  return {
    bar_index := bar_index, number_of_resizable_bars := number_of_resizable_bars,
    bar_size := bar_size, support_map_from_256tb_to_8eb := support_map_from_256tb_to_8eb }

/-- src/extended_capabilities/resizable_bar.rs:185-191 -/
def ResizableBarCapability.ofU32 (dword : U32) : ResizableBarCapability where
  support_map_from_1mb_to_128tb := dword

/-- src/extended_capabilities/resizable_bar.rs:112-135 -/
def ResizableBar.ofBytes (slice : Bytes) : Res ResizableBarError ResizableBar := do
  let head ← BP.head le64 .FirstEntry ((getFrom slice 4).getD [])
  let num_bars : U64 := runBits head do
    skip 37
    let num_bars ← bits 3
    skip 24
    return num_bars
  let num_bars := num_bars.toNat
  if 1 ≤ num_bars ∧ num_bars ≤ 6 then
    let start := 4
    let stop := start + num_bars * 8
    let chunks ← Res.okOr .ShortData (getRange slice start stop)
    return { val := chunks }
  else .err (.NumberOfResizableBars num_bars)

/-- src/extended_capabilities/resizable_bar.rs:137-151 -/
def ResizableBar.next (s : ResizableBar) : Option (ResizableBarEntry × ResizableBar) := do
  let (chunk, rest) ← chunk 8 s.val
  let ((cap, ctrl), _) ← (do
    let cap ← le32
    let ctrl ← le32
    return (cap, ctrl) : BP (U32 × U32)) chunk
  some ({ capability := .ofU32 cap, control := .ofU32 ctrl }, { val := rest })

/-- src/extended_capabilities/resizable_bar.rs:162-168 -/
def ResizableBarEntry.BAR_SIZES : List String := [
  "1MB", "2MB", "4MB", "8MB", "16MB", "32MB", "64MB", "128MB", "256MB", "512MB",
  "1GB", "2GB", "4GB", "8GB", "16GB", "32GB", "64GB", "128GB", "256GB", "512GB",
  "1TB", "2TB", "4TB", "8TB", "16TB", "32TB", "64TB", "128TB", "256TB", "512TB",
  "1PB", "2PB", "4PB", "8PB", "16PB", "32PB", "64PB", "128PB", "256PB", "512PB",
  "1EB", "2EB", "4EB", "8EB"]

/-- src/extended_capabilities/resizable_bar.rs:170-176 -/
def ResizableBarEntry.is_function_supports_power_of_two (e : ResizableBarEntry) (power : Nat) :
    Bool :=
  if 20 ≤ power ∧ power ≤ 47 then
    (e.capability.support_map_from_1mb_to_128tb &&& ((1 : U32) <<< (power - 16))) != 0
  else if 48 ≤ power ∧ power ≤ 63 then
    (e.control.support_map_from_256tb_to_8eb &&& ((1 : U16) <<< (power - 48))) != 0
  else false

end Pcics.ResizableBar
