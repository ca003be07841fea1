import Verif.Model.Ext.Multicast
import Verif.Spec
/- Specification of src/extended_capabilities/multicast.rs: positions and value tables. -/

namespace Pcics.Multicast
open Spec

/-- Layout of `MulticastCapability`. -/
def MulticastCapability.spec (w : U16) : MulticastCapability :=
  {
    mc_max_group := fld w 0 6, mc_window_size_requested := fld w 8 6,
    mc_ecrc_regeneration_supported := flag w 15 }

/-- Layout of `MulticastControl`. -/
def MulticastControl.spec (w : U16) : MulticastControl :=
  { mc_num_group := fld w 0 6, mc_enable := flag w 15 }

/-- Layout of `McBaseAddress`. -/
def McBaseAddress.spec (w : U64) : McBaseAddress :=
  { mc_index_position := fld w 0 6, mc_base_address := cat (fld w 12 52 : BitVec 52) (0 : BitVec 12) }

/-- Layout of `McOverlayBar`. -/
def McOverlayBar.spec (w : U64) : McOverlayBar :=
  { mc_overlay_size := fld w 0 6, mc_overlay_bar := cat (fld w 6 58 : BitVec 58) (0 : BitVec 6) }

/-- Layout of the structure (offsets with the header). -/
def Multicast.spec (d : Bytes) : Multicast :=
  {
    multicast_capability := MulticastCapability.spec (rd16 d 4),
    multicast_control := MulticastControl.spec (rd16 d 6),
    mc_base_address := McBaseAddress.spec (rd64 d 8), mc_receive := rd64 d 16,
    mc_block_all := rd64 d 24, mc_block_untranslated := rd64 d 32,
    mc_overlay_bar := if 48 ≤ d.length then some (McOverlayBar.spec (rd64 d 40)) else none }

end Pcics.Multicast
