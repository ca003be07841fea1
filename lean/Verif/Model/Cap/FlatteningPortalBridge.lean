import Verif.Model.Common
/- Model of src/capabilities/flattening_portal_bridge.rs -/

namespace Pcics.FlatteningPortalBridge

/-- src/capabilities/flattening_portal_bridge.rs:194-203 -/
inductive FpbRidVectorSizeSupported where
  | Size256bits
  | Size1Kbits
  | Size8kbits
  | Reserved (v : U8)
  deriving DecidableEq, Repr

/-- src/capabilities/flattening_portal_bridge.rs:220-233 -/
inductive FpbMemLowVectorSizeSupported where
  | Size256bits
  | Size512bits
  | Size1Kbits
  | Size2Kbits
  | Size4Kbits
  | Reserved (v : U8)
  deriving DecidableEq, Repr

/-- src/capabilities/flattening_portal_bridge.rs:250-265 -/
inductive FpbMemHighVectorSizeSupported where
  | Size256bits
  | Size512bits
  | Size1Kbits
  | Size2Kbits
  | Size4Kbits
  | Size8Kbits
  | Reserved (v : U8)
  deriving DecidableEq, Repr

/-- src/capabilities/flattening_portal_bridge.rs:148-162 -/
structure FpbCapabilities where
  fpb_rid_decode_mechanism_supported : Bool
  fpb_mem_low_decode_mechanism_supported : Bool
  fpb_mem_high_decode_mechanism_supported : Bool
  fpb_num_sec_dev : U8
  fpb_rid_vector_size_supported : FpbRidVectorSizeSupported
  fpb_mem_low_vector_size_supported : FpbMemLowVectorSizeSupported
  fpb_mem_high_vector_size_supported : FpbMemHighVectorSizeSupported
  deriving DecidableEq, Repr

/-- src/capabilities/flattening_portal_bridge.rs:310-319 -/
inductive FpbRidVectorGranularity where
  | Granularity8RIDs
  | Granularity64RIDs
  | Granularity256RIDs
  | Reserved (v : U8)
  deriving DecidableEq, Repr

/-- src/capabilities/flattening_portal_bridge.rs:283-291 -/
structure FpbRidVectorControl where
  fpb_rid_decode_mechanism_enable : Bool
  fpb_rid_vector_granularity : FpbRidVectorGranularity
  fpb_rid_vector_start : U16
  rid_secondary_start : U16
  deriving DecidableEq, Repr

/-- src/capabilities/flattening_portal_bridge.rs:357-370 -/
inductive FpbMemLowVectorGranularity where
  | Granularity1MB
  | Granularity2MB
  | Granularity4MB
  | Granularity8MB
  | Granularity16MB
  | Reserved (v : U8)
  deriving DecidableEq, Repr

/-- src/capabilities/flattening_portal_bridge.rs:334-339 -/
structure FpbMemLowVectorControl where
  fpb_mem_low_decode_mechanism_enable : Bool
  fpb_mem_low_vector_granularity : FpbMemLowVectorGranularity
  fpb_mem_low_vector_start : U32
  deriving DecidableEq, Repr

/-- src/capabilities/flattening_portal_bridge.rs:411-430 -/
inductive FpbMemHighVectorGranularity where
  | Granularity256MB
  | Granularity512MB
  | Granularity1GB
  | Granularity2GB
  | Granularity4GB
  | Granularity8GB
  | Granularity16GB
  | Granularity32GB
  | Reserved (v : U8)
  deriving DecidableEq, Repr

/-- src/capabilities/flattening_portal_bridge.rs:387-391 -/
structure FpbMemHighVectorControl where
  fpb_mem_high_decode_mechanism_enable : Bool
  fpb_mem_high_vector_granularity : FpbMemHighVectorGranularity
  fpb_mem_high_vector_start : U64
  deriving DecidableEq, Repr

/-- src/capabilities/flattening_portal_bridge.rs:469-478 -/
inductive FpbVectorSelect where
  | Rid
  | MemLow
  | MemHigh
  | Reserved
  deriving DecidableEq, Repr

/-- src/capabilities/flattening_portal_bridge.rs:450-455 -/
structure FpbVectorAccessControl where
  fpb_vector_access_offset : U8
  fpb_vector_select : FpbVectorSelect
  deriving DecidableEq, Repr

/-- src/capabilities/flattening_portal_bridge.rs:85-95 -/
structure FlatteningPortalBridge where
  reserved : U16
  fpb_capabilities : FpbCapabilities
  fpb_rid_vector_control : FpbRidVectorControl
  fpb_mem_low_vector_control : FpbMemLowVectorControl
  fpb_mem_high_vector_control : FpbMemHighVectorControl
  fpb_vector_access_control : FpbVectorAccessControl
  fpb_vector_access_data : U32
  deriving DecidableEq, Repr

/-- src/capabilities/flattening_portal_bridge.rs:205-214 -/
def FpbRidVectorSizeSupported.ofU8 (b : U8) : FpbRidVectorSizeSupported :=
  match b.toNat with
  | 0b000 => .Size256bits
  | 0b010 => .Size1Kbits
  | 0b101 => .Size8kbits
  | _ => .Reserved b

/-- src/capabilities/flattening_portal_bridge.rs:235-246 -/
def FpbMemLowVectorSizeSupported.ofU8 (b : U8) : FpbMemLowVectorSizeSupported :=
  match b.toNat with
  | 0b000 => .Size256bits
  | 0b001 => .Size512bits
  | 0b010 => .Size1Kbits
  | 0b011 => .Size2Kbits
  | 0b100 => .Size4Kbits
  | _ => .Reserved b

/-- src/capabilities/flattening_portal_bridge.rs:267-279 -/
def FpbMemHighVectorSizeSupported.ofU8 (b : U8) : FpbMemHighVectorSizeSupported :=
  match b.toNat with
  | 0b000 => .Size256bits
  | 0b001 => .Size512bits
  | 0b010 => .Size1Kbits
  | 0b011 => .Size2Kbits
  | 0b100 => .Size4Kbits
  | 0b101 => .Size8Kbits
  | _ => .Reserved b

/-- src/capabilities/flattening_portal_bridge.rs:164-188 -/
def FpbCapabilities.ofU32 (w : U32) : FpbCapabilities := runBits w do
  let fpb_rid_decode_mechanism_supported ← bit
  let fpb_mem_low_decode_mechanism_supported ← bit
  let fpb_mem_high_decode_mechanism_supported ← bit
  let fpb_num_sec_dev ← bits 5
  let rid ← bits 3
  skip 5
  let mem_low ← bits 3
  skip 5
  let mem_high ← bits 3
  skip 5
  return {
    fpb_rid_decode_mechanism_supported := fpb_rid_decode_mechanism_supported,
    fpb_mem_low_decode_mechanism_supported := fpb_mem_low_decode_mechanism_supported,
    fpb_mem_high_decode_mechanism_supported := fpb_mem_high_decode_mechanism_supported,
    fpb_num_sec_dev := fpb_num_sec_dev,
    fpb_rid_vector_size_supported := FpbRidVectorSizeSupported.ofU8 rid,
    fpb_mem_low_vector_size_supported := FpbMemLowVectorSizeSupported.ofU8 mem_low,
    fpb_mem_high_vector_size_supported := FpbMemHighVectorSizeSupported.ofU8 mem_high }

/-- src/capabilities/flattening_portal_bridge.rs:321-330 -/
def FpbRidVectorGranularity.ofU8 (b : U8) : FpbRidVectorGranularity :=
  match b.toNat with
  | 0b0000 => .Granularity8RIDs
  | 0b0011 => .Granularity64RIDs
  | 0b0101 => .Granularity256RIDs
  | _ => .Reserved b

/-- src/capabilities/flattening_portal_bridge.rs:372-383 -/
def FpbMemLowVectorGranularity.ofU8 (b : U8) : FpbMemLowVectorGranularity :=
  match b.toNat with
  | 0b0000 => .Granularity1MB
  | 0b0001 => .Granularity2MB
  | 0b0010 => .Granularity4MB
  | 0b0011 => .Granularity8MB
  | 0b0100 => .Granularity16MB
  | _ => .Reserved b

/-- src/capabilities/flattening_portal_bridge.rs:341-353 -/
def FpbMemLowVectorControl.ofU32 (w : U32) : FpbMemLowVectorControl := runBits w do
  let fpb_mem_low_decode_mechanism_enable ← bit
  skip 3
  let (granularity : U8) ← bits 4
  skip 12
  let (start : U32) ← bits 12
  return {
    fpb_mem_low_decode_mechanism_enable := fpb_mem_low_decode_mechanism_enable,
    fpb_mem_low_vector_granularity := FpbMemLowVectorGranularity.ofU8 granularity,
    fpb_mem_low_vector_start := (start <<< 20) &&&
      wrappingShl (BitVec.allOnes 32) (20 + granularity.toNat) }

/-- src/capabilities/flattening_portal_bridge.rs:432-446 -/
def FpbMemHighVectorGranularity.ofU8 (b : U8) : FpbMemHighVectorGranularity :=
  match b.toNat with
  | 0b0000 => .Granularity256MB
  | 0b0001 => .Granularity512MB
  | 0b0010 => .Granularity1GB
  | 0b0011 => .Granularity2GB
  | 0b0100 => .Granularity4GB
  | 0b0101 => .Granularity8GB
  | 0b0110 => .Granularity16GB
  | 0b0111 => .Granularity32GB
  | _ => .Reserved b

/-- src/capabilities/flattening_portal_bridge.rs:480-490 -/
def FpbVectorSelect.ofU8 {ε : Type} (b : U8) : Res ε FpbVectorSelect :=
  match b.toNat with
  | 0b00 => .ok .Rid
  | 0b01 => .ok .MemLow
  | 0b10 => .ok .MemHigh
  | 0b11 => .ok .Reserved
  | _ => .panic

/-- src/capabilities/flattening_portal_bridge.rs:457-465 -/
def FpbVectorAccessControl.ofU32 {ε : Type} (w : U32) : Res ε FpbVectorAccessControl := runBits w do
  let fpb_vector_access_offset ← bits 8
  skip 6
  let select ← bits 2
  skip 16
  return do
    let select ← FpbVectorSelect.ofU8 select
    return {
      fpb_vector_access_offset := fpb_vector_access_offset, fpb_vector_select := select }

/-- src/capabilities/flattening_portal_bridge.rs:293-306 -/
def FpbRidVectorControl.new (control_1 control_2 : U32) : FpbRidVectorControl :=
  let (enable, granularity, start) : Bool × U8 × U16 := runBits control_1 do
    let enable ← bit
    skip 3
    let granularity ← bits 4
    skip 11
    let start ← bits 13
    return (enable, granularity, start)
  let rid_secondary_start : U16 := runBits control_2 do
    skip 3
    let rid_secondary_start ← bits 13
    skip 16
    return rid_secondary_start
  { fpb_rid_decode_mechanism_enable := enable
    fpb_rid_vector_granularity := FpbRidVectorGranularity.ofU8 granularity
    fpb_rid_vector_start := (start <<< 3) &&&
      wrappingShl (BitVec.allOnes 16) (3 + granularity.toNat)
    rid_secondary_start := rid_secondary_start }

/-- src/capabilities/flattening_portal_bridge.rs:393-407 -/
def FpbMemHighVectorControl.new (control_1 control_2 : U32) : FpbMemHighVectorControl :=
  let (enable, granularity, start) : Bool × U8 × U64 := runBits control_1 do
    let enable ← bit
    skip 3
    let granularity ← bits 4
    skip 20
    let start ← bits 4
    return (enable, granularity, start)
  let start_low := start <<< 28
  let start_high := (control_2.setWidth 64 : U64) <<< 32
  let mask := wrappingShl (BitVec.allOnes 64) (28 + granularity.toNat)
  { fpb_mem_high_decode_mechanism_enable := enable
    fpb_mem_high_vector_granularity := FpbMemHighVectorGranularity.ofU8 granularity
    fpb_mem_high_vector_start := (start_low ||| start_high) &&& mask }

/-- src/capabilities/flattening_portal_bridge.rs:97-144 (`SIZE` and the two conversions; the slice
conversion takes the prefix of `SIZE` bytes, the array conversion destructures it) -/
def FlatteningPortalBridge.ofBytes (slice : Bytes) :
    Res CapabilityDataError FlatteningPortalBridge := do
  let bytes ← BP.head (bytesN (2 + 8 * 4)) ⟨"Flattening Portal Bridge", 2 + 8 * 4⟩ slice
  let (reserved, capabilities, rid_1, rid_2, mem_low, mem_high_1, mem_high_2, access_control, data)
    ← BP.arr (do
      let reserved ← le16
      let capabilities ← le32
      let rid_1 ← le32
      let rid_2 ← le32
      let mem_low ← le32
      let mem_high_1 ← le32
      let mem_high_2 ← le32
      let access_control ← le32
      let data ← le32
      return (reserved, capabilities, rid_1, rid_2, mem_low, mem_high_1, mem_high_2,
        access_control, data)) bytes
  let access_control ← FpbVectorAccessControl.ofU32 access_control
  return {
    reserved := reserved
    fpb_capabilities := FpbCapabilities.ofU32 capabilities
    fpb_rid_vector_control := FpbRidVectorControl.new rid_1 rid_2
    fpb_mem_low_vector_control := FpbMemLowVectorControl.ofU32 mem_low
    fpb_mem_high_vector_control := FpbMemHighVectorControl.new mem_high_1 mem_high_2
    fpb_vector_access_control := access_control
    fpb_vector_access_data := data }

end Pcics.FlatteningPortalBridge
