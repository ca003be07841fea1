import Verif.Model.Cap.MsiX
import Verif.Spec
/- Specification of src/capabilities/msi_x.rs: positions and value tables. -/

namespace Pcics.MsiX
open Spec

/-- Values of `Bir`. -/
def Bir.spec (c : U8) : Bir :=
  pick c [(0, .Bar10h), (1, .Bar14h), (2, .Bar18h), (3, .Bar1Ch), (4, .Bar20h), (5, .Bar24h)]
    (.Reserved c)

/-- Layout of `MessageControl`. -/
def MessageControl.spec (w : U16) : MessageControl :=
  { table_size := fld w 0 11, function_mask := flag w 14, msi_x_enable := flag w 15 }

/-- Table register: BIR bits 2:0, offset is the dword with the low 3 bits cleared. -/
def Table.spec (w : U32) : Table where
  bir := .spec (fld w 0 3)
  offset := w &&& ~~~0b111#32

/-- Pending bit array register: BIR bits 2:0, offset is the dword with the low 3 bits cleared. -/
def PendingBitArray.spec (w : U32) : PendingBitArray where
  bir := .spec (fld w 0 3)
  offset := w &&& ~~~0b111#32

/-- `d` starts at offset 2 of the structure. -/
def MsiX.spec (d : Bytes) : MsiX where
  message_control := .spec (rd16 d 0)
  table := .spec (rd32 d 2)
  pending_bit_array := .spec (rd32 d 6)

end Pcics.MsiX
