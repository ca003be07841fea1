import Verif.Model.Ext.TphRequester
import Verif.Spec
/- Specification of src/extended_capabilities/tph_requester.rs: positions and value tables. -/

namespace Pcics.TphRequester
open Spec

/-- Values of `StModeSelect`. -/
def StModeSelect.spec (c : U8) : StModeSelect :=
  pick c [(0, .NoStMode), (1, .InterruptVectorMode), (2, .DeviceSpecificMode)] (.Reserved c)

/-- Values of `TphRequesterEnable`. -/
def TphRequesterEnable.spec (c : U8) : TphRequesterEnable :=
  pick c [(0, .NotPermitted), (1, .TphPermitted), (2, .Reserved)] .TphAndExtendedTphPermitted

/-- Layout of `TphRequesterControl`. -/
def TphRequesterControl.spec (w : U32) : TphRequesterControl :=
  {
    st_mode_select := StModeSelect.spec (fld w 0 3),
    tph_requester_enable := TphRequesterEnable.spec (fld w 8 2) }

/-- The ST table for a location code, a size field and the bytes after the two registers. A table
in the structure has `size + 1` words, at most 64. -/
def StTable.spec (loc : U8) (size : U16) (rest : Bytes) : StTable :=
  pick loc [(0, .NotPresent),
      (1, if size.toNat + 1 ≤ 64 ∧ 2 * (size.toNat + 1) ≤ rest.length
        then .Valid size (rest.take (2 * (size.toNat + 1))) else .Invalid size rest),
      (2, .MsiXTable size)] .Reserved

/-- Layout of the structure (offsets without the four header bytes). -/
def TphRequester.spec (d : Bytes) : TphRequester :=
  {
    tph_requester_capability := {
      no_st_mode_supported := flag (rd32 d 0) 0,
      interrupt_vector_mode_supported := flag (rd32 d 0) 1,
      device_specific_mode_supported := flag (rd32 d 0) 2,
      extended_tph_requester_supported := flag (rd32 d 0) 8,
      st_table := StTable.spec (fld (rd32 d 0) 9 2) (fld (rd32 d 0) 16 11) (d.drop 8) },
    tph_requester_control := TphRequesterControl.spec (rd32 d 4) }

end Pcics.TphRequester
