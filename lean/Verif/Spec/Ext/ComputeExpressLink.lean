import Verif.Model.Ext.ComputeExpressLink
import Verif.Spec
/- Specification of src/extended_capabilities/designated_vendor_specific_extended_capability/compute_express_link/pcie_dvsec_for_cxl_device.rs: positions and value tables. -/

namespace Pcics.ComputeExpressLink
open Spec

/-- Values of `HdmCount`. -/
def HdmCount.spec (c : U8) : HdmCount :=
  pick c [(0, .ZeroRanges), (1, .OneHdmRange), (2, .TwoHdmRanges)] .Reserved

/-- Values of `CxlResetTimeout`. -/
def CxlResetTimeout.spec (c : U8) : CxlResetTimeout :=
  pick c [(0, .MaxTime10ms), (1, .MaxTime100ms), (2, .MaxTime1s), (3, .MaxTime10s),
    (4, .MaxTime100s)] (.Reserved c)

/-- Values of `CacheSfCoverage`. -/
def CacheSfCoverage.spec (c : U8) : CacheSfCoverage :=
  pick c [(0, .NoSnoopFilter)] (.SnoopFilter (BitVec.ofNat 64 (2 ^ (c.toNat + 15))))

/-- Values of `CacheSfGranularity`. -/
def CacheSfGranularity.spec (c : U8) : CacheSfGranularity :=
  pick c [(0, .Tracking64B), (1, .Tracking128B), (2, .Tracking256B), (3, .Tracking512B),
    (4, .Tracking1KB), (5, .Tracking2KB), (6, .Tracking4KB)] .Reserved

/-- Values of `CacheSizeUnit`. -/
def CacheSizeUnit.spec (c : U8) : CacheSizeUnit :=
  pick c [(0, .NotReported), (1, .Unit64K), (2, .Unit1MB)] (.Reserved c)

/-- Values of `MediaType`. -/
def MediaType.spec (c : U8) : MediaType :=
  pick c [(0, .Volatile), (1, .NonVolatile), (2, .Cdat)] (.Reserved c)

/-- Values of `MemoryClass`. -/
def MemoryClass.spec (c : U8) : MemoryClass :=
  pick c [(0, .Memory), (1, .Storage), (2, .Cdat)] (.Reserved c)

/-- Values of `DesiredInterleave`. -/
def DesiredInterleave.spec (c : U8) : DesiredInterleave :=
  pick c [(0, .NoInterleave), (1, .Granularity256B), (2, .Granularity4KB),
    (3, .Granularity512B), (4, .Granularity1KB), (5, .Granularity2KB), (6, .Granularity8KB),
    (7, .Granularity16KB)] (.Reserved c)

/-- Values of `MemoryActiveTimeout`. -/
def MemoryActiveTimeout.spec (c : U8) : MemoryActiveTimeout :=
  pick c [(0, .MaxTime1s), (1, .MaxTime4s), (2, .MaxTime16s), (3, .MaxTime64s),
    (4, .MaxTime256s)] (.Reserved c)

/-- Layout of `CxlCapability`. -/
def CxlCapability.spec (w : U16) : CxlCapability :=
  {
    cache_capable := flag w 0, io_capable := flag w 1, mem_capable := flag w 2,
    mem_hwinit_mode := flag w 3, hdm_count := HdmCount.spec (fld w 4 2),
    cache_writeback_and_invalidate_capable := flag w 6, cxl_reset_capable := flag w 7,
    cxl_reset_timeout := CxlResetTimeout.spec (fld w 8 3),
    cxl_reset_mem_clr_capable := flag w 11, multiple_logical_device := flag w 13,
    viral_capable := flag w 14, pm_init_completion_reporting_capable := flag w 15 }

/-- Values of `CacheCleanEviction`. -/
def CacheCleanEviction.spec (b : Bool) : CacheCleanEviction := cond b .NotNeeded .Needed

/-- Layout of `CxlControl`. -/
def CxlControl.spec (w : U16) : CxlControl :=
  {
    cache_enable := flag w 0, io_enable := flag w 1, mem_enable := flag w 2,
    cache_sf_coverage := CacheSfCoverage.spec (fld w 3 5),
    cache_sf_granularity := CacheSfGranularity.spec (fld w 8 3),
    cache_clean_eviction := CacheCleanEviction.spec (flag w 11), viral_enable := flag w 14 }

/-- Layout of `CxlStatus`. -/
def CxlStatus.spec (w : U16) : CxlStatus :=
  { viral_status := flag w 14 }

/-- Layout of `CxlControl2`. -/
def CxlControl2.spec (w : U16) : CxlControl2 :=
  {
    disable_caching := flag w 0, initiate_cache_write_back_and_invalidation := flag w 1,
    initiate_cxl_reset := flag w 2, cxl_reset_mem_clr_enable := flag w 3 }

/-- Layout of `CxlStatus2`. -/
def CxlStatus2.spec (w : U16) : CxlStatus2 :=
  {
    cache_invalid := flag w 0, cxl_reset_complete := flag w 1, cxl_reset_error := flag w 2,
    power_management_initialization_complete := flag w 15 }

/-- Layout of `CxlLock`. -/
def CxlLock.spec (w : U16) : CxlLock :=
  { config_lock := flag w 0 }

/-- Layout of `CxlCapability2`. -/
def CxlCapability2.spec (w : U16) : CxlCapability2 :=
  { cache_size_unit := CacheSizeUnit.spec (fld w 0 4), cache_size := fld w 8 8 }

/-- CXL range size: attributes in the low dword, size bits 31:28 there and 63:32 in the high dword. -/
def CxlRangeSize.spec (low high : U32) : CxlRangeSize where
  memory_info_valid := flag low 0
  memory_active := flag low 1
  media_type := .spec (fld low 2 3)
  memory_class := .spec (fld low 5 3)
  desired_interleave := .spec (fld low 8 5)
  memory_active_timeout := .spec (fld low 13 3)
  memory_size := cat high (low &&& 0xf0000000#32)

/-- Layout of the registers; `d` starts at offset 0x0a of the DVSEC (the CXL Capability register). -/
def PcieDvsecForCxlDevice.spec (d : Bytes) : PcieDvsecForCxlDevice where
  cxl_capability := .spec (rd16 d 0)
  cxl_control := .spec (rd16 d 2)
  cxl_status := .spec (rd16 d 4)
  cxl_control2 := .spec (rd16 d 6)
  cxl_status2 := .spec (rd16 d 8)
  cxl_lock := .spec (rd16 d 10)
  cxl_capability2 := .spec (rd16 d 12)
  cxl_range_1_size := .spec (rd32 d 18) (rd32 d 14)
  cxl_range_1_base := { memory_base := cat (rd32 d 22) (rd32 d 26) }
  cxl_range_2_size := .spec (rd32 d 34) (rd32 d 30)
  cxl_range_2_base := { memory_base := cat (rd32 d 38) (rd32 d 42) }

/-- DVSEC IDs assigned by the CXL specification. -/
def ComputeExpressLink.spec (d : Bytes) (id : U16) :
    Res ComputeExpressLinkError ComputeExpressLink :=
  pick id [
    (0x00, if 46 ≤ d.length then .ok (.PcieDvsecForCxlDevice (.spec d))
      else .err .PcieDvsecForCxlDevice),
    (0x02, .ok .NonCxlFunctionMapDvsec), (0x03, .ok .Cxl20ExtensionsDvsecForPorts),
    (0x04, .ok .GpfDvsecForCxlPorts), (0x05, .ok .GpfDvsecForCxlDevices),
    (0x07, .ok .PcieDvsecForFlexBusPort), (0x08, .ok .RegisterLocatorDvsec),
    (0x09, .ok .MldDvsec), (0x0a, .ok .PcieDvsecForTestCapability)] (.ok (.Undefined id))

end Pcics.ComputeExpressLink
