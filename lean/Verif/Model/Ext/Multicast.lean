import Verif.Model.Common
/- Model of src/extended_capabilities/multicast.rs -/

namespace Pcics.Multicast

/-- src/extended_capabilities/multicast.rs:135-142 -/
structure MulticastCapability where
  mc_max_group : U8
  mc_window_size_requested : U8
  mc_ecrc_regeneration_supported : Bool
  deriving DecidableEq, Repr

/-- src/extended_capabilities/multicast.rs:158-163 -/
structure MulticastControl where
  mc_num_group : U8
  mc_enable : Bool
  deriving DecidableEq, Repr

/-- src/extended_capabilities/multicast.rs:177-182 -/
structure McBaseAddress where
  mc_index_position : U8
  mc_base_address : U64
  deriving DecidableEq, Repr

/-- src/extended_capabilities/multicast.rs:198-201 -/
structure McOverlayBar where
  mc_overlay_size : U8
  mc_overlay_bar : U64
  deriving DecidableEq, Repr

/-- src/extended_capabilities/multicast.rs:70-84 -/
structure Multicast where
  multicast_capability : MulticastCapability
  multicast_control : MulticastControl
  mc_base_address : McBaseAddress
  mc_receive : U64
  mc_block_all : U64
  mc_block_untranslated : U64
  mc_overlay_bar : Option McOverlayBar
  deriving DecidableEq, Repr

/-- src/extended_capabilities/multicast.rs:144-154 -/
def MulticastCapability.ofU16 (w : U16) : MulticastCapability := runBits w do
  let mc_max_group ← bits 6
  skip 2
  let mc_window_size_requested ← bits 6
  skip 1
  let mc_ecrc_regeneration_supported ← bit
  return {
    mc_max_group := mc_max_group, mc_window_size_requested := mc_window_size_requested,
    mc_ecrc_regeneration_supported := mc_ecrc_regeneration_supported }

/-- src/extended_capabilities/multicast.rs:165-173 -/
def MulticastControl.ofU16 (w : U16) : MulticastControl := runBits w do
  let mc_num_group ← bits 6
  skip 9
  let mc_enable ← bit
  return { mc_num_group := mc_num_group, mc_enable := mc_enable }

/-- src/extended_capabilities/multicast.rs:184-193 -/
def McBaseAddress.ofU64 (w : U64) : McBaseAddress := runBits w do
  let mc_index_position ← bits 6
  skip 6
  let mc_base_address ← bits 52
  return {
    mc_index_position := mc_index_position, mc_base_address := mc_base_address <<< 12 }

/-- src/extended_capabilities/multicast.rs:203-212 -/
def McOverlayBar.ofU64 (w : U64) : McOverlayBar := runBits w do
  let mc_overlay_size ← bits 6
  let mc_overlay_bar ← bits 58
  return {
    mc_overlay_size := mc_overlay_size, mc_overlay_bar := mc_overlay_bar <<< 6 }

/-- src/extended_capabilities/multicast.rs:90-131 -/
def Multicast.ofBytes (slice : Bytes) : Res ExtendedCapabilityDataError Multicast := do
  let ((multicast_capability, multicast_control, mc_base_address, rcv_l, rcv_h, blk_all_l,
      blk_all_h, blk_untr_l, blk_untr_h), tail) ← BP.seq (do
    let _ ← le32
    let multicast_capability ← le16
    let multicast_control ← le16
    let mc_base_address ← le64
    let rcv_l ← le32
    let rcv_h ← le32
    let blk_all_l ← le32
    let blk_all_h ← le32
    let blk_untr_l ← le32
    let blk_untr_h ← le32
    return (multicast_capability, multicast_control, mc_base_address, rcv_l, rcv_h, blk_all_l,
      blk_all_h, blk_untr_l, blk_untr_h)) { name := "Multicast", size := 0x30 } slice
  let mc_overlay_bar := (le64 tail).map fun (head, _) => McOverlayBar.ofU64 head
  return {
    multicast_capability := MulticastCapability.ofU16 multicast_capability,
    multicast_control := MulticastControl.ofU16 multicast_control,
    mc_base_address := McBaseAddress.ofU64 mc_base_address,
    mc_receive := rcv_l.setWidth 64 ||| rcv_h.setWidth 64 <<< 32,
    mc_block_all := blk_all_l.setWidth 64 ||| blk_all_h.setWidth 64 <<< 32,
    mc_block_untranslated := blk_untr_l.setWidth 64 ||| blk_untr_h.setWidth 64 <<< 32,
    mc_overlay_bar := mc_overlay_bar }

end Pcics.Multicast
