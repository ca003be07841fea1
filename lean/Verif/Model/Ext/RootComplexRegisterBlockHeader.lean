import Verif.Model.Common
/- Model of src/extended_capabilities/root_complex_register_block_header.rs -/

namespace Pcics.RootComplexRegisterBlockHeader

/-- src/extended_capabilities/root_complex_register_block_header.rs:105-112 -/
structure RcrbCapabilities where
  crs_software_visibility : Bool
  deriving DecidableEq, Repr

/-- src/extended_capabilities/root_complex_register_block_header.rs:125-132 -/
structure RcrbControl where
  crs_software_visibility_enable : Bool
  deriving DecidableEq, Repr

/-- src/extended_capabilities/root_complex_register_block_header.rs:51-64 -/
structure RootComplexRegisterBlockHeader where
  vendor_id : U16
  device_id : U16
  rcrb_capabilities : RcrbCapabilities
  rcrb_control : RcrbControl
  deriving DecidableEq, Repr

/-- src/extended_capabilities/root_complex_register_block_header.rs:114-121 -/
def RcrbCapabilities.ofU32 (w : U32) : RcrbCapabilities := runBits w do
  let crs_software_visibility ← bit
  skip 31
  return { crs_software_visibility := crs_software_visibility }

/-- src/extended_capabilities/root_complex_register_block_header.rs:134-141 -/
def RcrbControl.ofU32 (w : U32) : RcrbControl := runBits w do
  let crs_software_visibility_enable ← bit
  skip 31
  return { crs_software_visibility_enable := crs_software_visibility_enable }

/-- src/extended_capabilities/root_complex_register_block_header.rs:67-69 -/
def RootComplexRegisterBlockHeader.SIZE : Nat := 20

/-- src/extended_capabilities/root_complex_register_block_header.rs:71-89; the header placeholder is four ignored bytes -/
def RootComplexRegisterBlockHeader.ofArray {ε : Type} (bytes : Bytes) : Res ε RootComplexRegisterBlockHeader := do
  let (vendor_id, device_id, rcrb_capabilities, rcrb_control) ← BP.arr (do
    let _ ← le32
    let vendor_id ← le16
    let device_id ← le16
    let rcrb_capabilities ← le32
    let rcrb_control ← le32
    let _ ← le32
    return (vendor_id, device_id, rcrb_capabilities, rcrb_control)) bytes
  return {
    vendor_id := vendor_id,
    device_id := device_id,
    rcrb_capabilities := RcrbCapabilities.ofU32 rcrb_capabilities,
    rcrb_control := RcrbControl.ofU32 rcrb_control }

/-- src/extended_capabilities/root_complex_register_block_header.rs:91-101 -/
def RootComplexRegisterBlockHeader.ofBytes (slice : Bytes) : Res ExtendedCapabilityDataError RootComplexRegisterBlockHeader := do
  let head ← BP.head (bytesN RootComplexRegisterBlockHeader.SIZE)
    { name := "RCRB Header", size := RootComplexRegisterBlockHeader.SIZE } slice
  RootComplexRegisterBlockHeader.ofArray head

end Pcics.RootComplexRegisterBlockHeader
