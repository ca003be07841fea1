import Verif.Model.Cap.FlatteningPortalBridge
import Verif.Spec
/- Specification of src/capabilities/flattening_portal_bridge.rs: positions and value tables. -/

namespace Pcics.FlatteningPortalBridge
open Spec

/-- `w` with the bits below position `k` cleared: the largest multiple of `2 ^ k` not above `w`. -/
def clearLow {n : Nat} (w : BitVec n) (k : Nat) : BitVec n :=
  BitVec.ofNat n (w.toNat / 2 ^ k * 2 ^ k)

/-- Values of `FpbRidVectorSizeSupported`. -/
def FpbRidVectorSizeSupported.spec (c : U8) : FpbRidVectorSizeSupported :=
  pick c [(0, .Size256bits), (2, .Size1Kbits), (5, .Size8kbits)] (.Reserved c)

/-- Values of `FpbMemLowVectorSizeSupported`. -/
def FpbMemLowVectorSizeSupported.spec (c : U8) : FpbMemLowVectorSizeSupported :=
  pick c [(0, .Size256bits), (1, .Size512bits), (2, .Size1Kbits), (3, .Size2Kbits),
    (4, .Size4Kbits)] (.Reserved c)

/-- Values of `FpbMemHighVectorSizeSupported`. -/
def FpbMemHighVectorSizeSupported.spec (c : U8) : FpbMemHighVectorSizeSupported :=
  pick c [(0, .Size256bits), (1, .Size512bits), (2, .Size1Kbits), (3, .Size2Kbits),
    (4, .Size4Kbits), (5, .Size8Kbits)] (.Reserved c)

/-- Values of `FpbRidVectorGranularity`. -/
def FpbRidVectorGranularity.spec (c : U8) : FpbRidVectorGranularity :=
  pick c [(0, .Granularity8RIDs), (3, .Granularity64RIDs), (5, .Granularity256RIDs)]
    (.Reserved c)

/-- Values of `FpbMemLowVectorGranularity`. -/
def FpbMemLowVectorGranularity.spec (c : U8) : FpbMemLowVectorGranularity :=
  pick c [(0, .Granularity1MB), (1, .Granularity2MB), (2, .Granularity4MB),
    (3, .Granularity8MB), (4, .Granularity16MB)] (.Reserved c)

/-- Values of `FpbMemHighVectorGranularity`. -/
def FpbMemHighVectorGranularity.spec (c : U8) : FpbMemHighVectorGranularity :=
  pick c [(0, .Granularity256MB), (1, .Granularity512MB), (2, .Granularity1GB),
    (3, .Granularity2GB), (4, .Granularity4GB), (5, .Granularity8GB), (6, .Granularity16GB),
    (7, .Granularity32GB)] (.Reserved c)

/-- Values of `FpbVectorSelect`. -/
def FpbVectorSelect.spec (c : U8) : FpbVectorSelect :=
  pick c [(0, .Rid), (1, .MemLow), (2, .MemHigh)] .Reserved

/-- Layout of `FpbCapabilities`. -/
def FpbCapabilities.spec (w : U32) : FpbCapabilities :=
  {
    fpb_rid_decode_mechanism_supported := flag w 0,
    fpb_mem_low_decode_mechanism_supported := flag w 1,
    fpb_mem_high_decode_mechanism_supported := flag w 2, fpb_num_sec_dev := fld w 3 5,
    fpb_rid_vector_size_supported := FpbRidVectorSizeSupported.spec (fld w 8 3),
    fpb_mem_low_vector_size_supported := FpbMemLowVectorSizeSupported.spec (fld w 16 3),
    fpb_mem_high_vector_size_supported := FpbMemHighVectorSizeSupported.spec (fld w 24 3) }

/-- Layout of `FpbMemLowVectorControl`. -/
def FpbMemLowVectorControl.spec (w : U32) : FpbMemLowVectorControl :=
  {
    fpb_mem_low_decode_mechanism_enable := flag w 0,
    fpb_mem_low_vector_granularity := FpbMemLowVectorGranularity.spec (fld w 4 4),
    fpb_mem_low_vector_start := 
      clearLow (cat (fld w 20 12 : BitVec 12) 0#20) (20 + (fld w 4 4 : U8).toNat) }

/-- Layout of `FpbVectorAccessControl`. -/
def FpbVectorAccessControl.spec (w : U32) : FpbVectorAccessControl :=
  {
    fpb_vector_access_offset := fld w 0 8,
    fpb_vector_select := FpbVectorSelect.spec (fld w 14 2) }

/-- Layout of the RID vector control 1 and 2 registers: the start is bits 31:19 as RID bits 15:3,
aligned to the granularity. -/
def FpbRidVectorControl.spec (c1 c2 : U32) : FpbRidVectorControl :=
  { fpb_rid_decode_mechanism_enable := flag c1 0
    fpb_rid_vector_granularity := .spec (fld c1 4 4)
    fpb_rid_vector_start := clearLow (cat (fld c1 19 13 : BitVec 13) 0#3) (3 + (fld c1 4 4 : U8).toNat)
    rid_secondary_start := fld c2 3 13 }

/-- Layout of the MEM high vector control 1 and 2 registers: the start is register 2 as address bits
63:32 and bits 31:28 of register 1, aligned to the granularity. -/
def FpbMemHighVectorControl.spec (c1 c2 : U32) : FpbMemHighVectorControl :=
  { fpb_mem_high_decode_mechanism_enable := flag c1 0
    fpb_mem_high_vector_granularity := .spec (fld c1 4 4)
    fpb_mem_high_vector_start :=
      clearLow (cat c2 (cat (fld c1 28 4 : BitVec 4) 0#28 : U32)) (28 + (fld c1 4 4 : U8).toNat) }

/-- Registers of the capability. -/
def FlatteningPortalBridge.spec (d : Bytes) : FlatteningPortalBridge :=
  { reserved := rd16 d 0
    fpb_capabilities := .spec (rd32 d 2)
    fpb_rid_vector_control := .spec (rd32 d 6) (rd32 d 10)
    fpb_mem_low_vector_control := .spec (rd32 d 14)
    fpb_mem_high_vector_control := .spec (rd32 d 18) (rd32 d 22)
    fpb_vector_access_control := .spec (rd32 d 26)
    fpb_vector_access_data := rd32 d 30 }

/-! What the code takes the registers for instead (C41): the number of cleared bits is taken modulo
the width of the address. -/

/-- The RID vector control registers as decoded. -/
def FpbRidVectorControl.read (c1 c2 : U32) : FpbRidVectorControl :=
  { FpbRidVectorControl.spec c1 c2 with
    fpb_rid_vector_start :=
      clearLow (cat (fld c1 19 13 : BitVec 13) 0#3) ((3 + (fld c1 4 4 : U8).toNat) % 16) }

/-- The MEM low vector control register as decoded. -/
def FpbMemLowVectorControl.read (w : U32) : FpbMemLowVectorControl :=
  { FpbMemLowVectorControl.spec w with
    fpb_mem_low_vector_start :=
      clearLow (cat (fld w 20 12 : BitVec 12) 0#20) ((20 + (fld w 4 4 : U8).toNat) % 32) }

end Pcics.FlatteningPortalBridge
