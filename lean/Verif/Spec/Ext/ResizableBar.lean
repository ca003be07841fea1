import Verif.Model.Ext.ResizableBar
import Verif.Spec
/- Specification of src/extended_capabilities/resizable_bar.rs: positions and value tables. -/

namespace Pcics.ResizableBar
open Spec

/-- Layout of `ResizableBarControl`. -/
def ResizableBarControl.spec (w : U32) : ResizableBarControl :=
  {
    bar_index := fld w 0 3, number_of_resizable_bars := fld w 5 3, bar_size := fld w 8 6,
    support_map_from_256tb_to_8eb := fld w 16 16 }

/-- Entry `i`: capability and control registers at 4 + 8 * i and 8 + 8 * i; `d` starts with the
extended capability header. -/
def ResizableBarEntry.spec (d : Bytes) (i : Nat) : ResizableBarEntry where
  capability := { support_map_from_1mb_to_128tb := rd32 d (4 + 8 * i) }
  control := .spec (rd32 d (8 + 8 * i))

/-- The number of entries: bits 7:5 of the first control register. -/
def numBars (d : Bytes) : Nat := (fld (rd32 d 8) 5 3 : U8).toNat

end Pcics.ResizableBar
