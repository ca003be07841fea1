import Verif.Model.Common
/- Model of src/extended_capabilities/designated_vendor_specific_extended_capability/
compute_express_link.rs and of src/extended_capabilities/designated_vendor_specific_extended_capability/compute_express_link/pcie_dvsec_for_cxl_device.rs -/

namespace Pcics.ComputeExpressLink

/-- src/extended_capabilities/designated_vendor_specific_extended_capability/compute_express_link/pcie_dvsec_for_cxl_device.rs:241-250 -/
inductive HdmCount where
  | ZeroRanges
  | OneHdmRange
  | TwoHdmRanges
  | Reserved
  deriving DecidableEq, Repr

/-- src/extended_capabilities/designated_vendor_specific_extended_capability/compute_express_link/pcie_dvsec_for_cxl_device.rs:266-279 -/
inductive CxlResetTimeout where
  | MaxTime10ms
  | MaxTime100ms
  | MaxTime1s
  | MaxTime10s
  | MaxTime100s
  | Reserved (v : U8)
  deriving DecidableEq, Repr

/-- src/extended_capabilities/designated_vendor_specific_extended_capability/compute_express_link/pcie_dvsec_for_cxl_device.rs:172-199 -/
structure CxlCapability where
  cache_capable : Bool
  io_capable : Bool
  mem_capable : Bool
  mem_hwinit_mode : Bool
  hdm_count : HdmCount
  cache_writeback_and_invalidate_capable : Bool
  cxl_reset_capable : Bool
  cxl_reset_timeout : CxlResetTimeout
  cxl_reset_mem_clr_capable : Bool
  multiple_logical_device : Bool
  viral_capable : Bool
  pm_init_completion_reporting_capable : Bool
  deriving DecidableEq, Repr

/-- src/extended_capabilities/designated_vendor_specific_extended_capability/compute_express_link/pcie_dvsec_for_cxl_device.rs:341-346 -/
inductive CacheSfCoverage where
  | NoSnoopFilter
  | SnoopFilter (v : U64)
  deriving DecidableEq, Repr

/-- src/extended_capabilities/designated_vendor_specific_extended_capability/compute_express_link/pcie_dvsec_for_cxl_device.rs:369-385 -/
inductive CacheSfGranularity where
  | Tracking64B
  | Tracking128B
  | Tracking256B
  | Tracking512B
  | Tracking1KB
  | Tracking2KB
  | Tracking4KB
  | Reserved
  deriving DecidableEq, Repr

/-- src/extended_capabilities/designated_vendor_specific_extended_capability/compute_express_link/pcie_dvsec_for_cxl_device.rs:405-410 -/
inductive CacheCleanEviction where
  | Needed
  | NotNeeded
  deriving DecidableEq, Repr

/-- src/extended_capabilities/designated_vendor_specific_extended_capability/compute_express_link/pcie_dvsec_for_cxl_device.rs:296-308 -/
structure CxlControl where
  cache_enable : Bool
  io_enable : Bool
  mem_enable : Bool
  cache_sf_coverage : CacheSfCoverage
  cache_sf_granularity : CacheSfGranularity
  cache_clean_eviction : CacheCleanEviction
  viral_enable : Bool
  deriving DecidableEq, Repr

/-- src/extended_capabilities/designated_vendor_specific_extended_capability/compute_express_link/pcie_dvsec_for_cxl_device.rs:424-427 -/
structure CxlStatus where
  viral_status : Bool
  deriving DecidableEq, Repr

/-- src/extended_capabilities/designated_vendor_specific_extended_capability/compute_express_link/pcie_dvsec_for_cxl_device.rs:442-452 -/
structure CxlControl2 where
  disable_caching : Bool
  initiate_cache_write_back_and_invalidation : Bool
  initiate_cxl_reset : Bool
  cxl_reset_mem_clr_enable : Bool
  deriving DecidableEq, Repr

/-- src/extended_capabilities/designated_vendor_specific_extended_capability/compute_express_link/pcie_dvsec_for_cxl_device.rs:478-487 -/
structure CxlStatus2 where
  cache_invalid : Bool
  cxl_reset_complete : Bool
  cxl_reset_error : Bool
  power_management_initialization_complete : Bool
  deriving DecidableEq, Repr

/-- src/extended_capabilities/designated_vendor_specific_extended_capability/compute_express_link/pcie_dvsec_for_cxl_device.rs:513-517 -/
structure CxlLock where
  config_lock : Bool
  deriving DecidableEq, Repr

/-- src/extended_capabilities/designated_vendor_specific_extended_capability/compute_express_link/pcie_dvsec_for_cxl_device.rs:553-561 -/
inductive CacheSizeUnit where
  | NotReported
  | Unit64K
  | Unit1MB
  | Reserved (v : U8)
  deriving DecidableEq, Repr

/-- src/extended_capabilities/designated_vendor_specific_extended_capability/compute_express_link/pcie_dvsec_for_cxl_device.rs:532-535 -/
structure CxlCapability2 where
  cache_size_unit : CacheSizeUnit
  cache_size : U8
  deriving DecidableEq, Repr

/-- src/extended_capabilities/designated_vendor_specific_extended_capability/compute_express_link/pcie_dvsec_for_cxl_device.rs:618-626 -/
inductive MediaType where
  | Volatile
  | NonVolatile
  | Cdat
  | Reserved (v : U8)
  deriving DecidableEq, Repr

/-- src/extended_capabilities/designated_vendor_specific_extended_capability/compute_express_link/pcie_dvsec_for_cxl_device.rs:641-649 -/
inductive MemoryClass where
  | Memory
  | Storage
  | Cdat
  | Reserved (v : U8)
  deriving DecidableEq, Repr

/-- src/extended_capabilities/designated_vendor_specific_extended_capability/compute_express_link/pcie_dvsec_for_cxl_device.rs:664-682 -/
inductive DesiredInterleave where
  | NoInterleave
  | Granularity256B
  | Granularity4KB
  | Granularity512B
  | Granularity1KB
  | Granularity2KB
  | Granularity8KB
  | Granularity16KB
  | Reserved (v : U8)
  deriving DecidableEq, Repr

/-- src/extended_capabilities/designated_vendor_specific_extended_capability/compute_express_link/pcie_dvsec_for_cxl_device.rs:703-710 -/
inductive MemoryActiveTimeout where
  | MaxTime1s
  | MaxTime4s
  | MaxTime16s
  | MaxTime64s
  | MaxTime256s
  | Reserved (v : U8)
  deriving DecidableEq, Repr

/-- src/extended_capabilities/designated_vendor_specific_extended_capability/compute_express_link/pcie_dvsec_for_cxl_device.rs:576-584 -/
structure CxlRangeSize where
  memory_info_valid : Bool
  memory_active : Bool
  media_type : MediaType
  memory_class : MemoryClass
  desired_interleave : DesiredInterleave
  memory_active_timeout : MemoryActiveTimeout
  memory_size : U64
  deriving DecidableEq, Repr

/-- src/extended_capabilities/designated_vendor_specific_extended_capability/compute_express_link/pcie_dvsec_for_cxl_device.rs:727-729 -/
structure CxlRangeBase where
  memory_base : U64
  deriving DecidableEq, Repr

/-- src/extended_capabilities/designated_vendor_specific_extended_capability/compute_express_link/pcie_dvsec_for_cxl_device.rs:144-156 -/
structure PcieDvsecForCxlDevice where
  cxl_capability : CxlCapability
  cxl_control : CxlControl
  cxl_status : CxlStatus
  cxl_control2 : CxlControl2
  cxl_status2 : CxlStatus2
  cxl_lock : CxlLock
  cxl_capability2 : CxlCapability2
  cxl_range_1_size : CxlRangeSize
  cxl_range_1_base : CxlRangeBase
  cxl_range_2_size : CxlRangeSize
  cxl_range_2_base : CxlRangeBase
  deriving DecidableEq, Repr

/-- src/extended_capabilities/designated_vendor_specific_extended_capability/compute_express_link/pcie_dvsec_for_cxl_device.rs:252-262 -/
def HdmCount.ofU8 {ε : Type} (b : U8) : Res ε HdmCount :=
  match b.toNat with
  | 0b00 => .ok .ZeroRanges
  | 0b01 => .ok .OneHdmRange
  | 0b10 => .ok .TwoHdmRanges
  | 0b11 => .ok .Reserved
  | _ => .panic

/-- src/extended_capabilities/designated_vendor_specific_extended_capability/compute_express_link/pcie_dvsec_for_cxl_device.rs:281-292 -/
def CxlResetTimeout.ofU8 (b : U8) : CxlResetTimeout :=
  match b.toNat with
  | 0b000 => .MaxTime10ms
  | 0b001 => .MaxTime100ms
  | 0b010 => .MaxTime1s
  | 0b011 => .MaxTime10s
  | 0b100 => .MaxTime100s
  | _ => .Reserved b

/-- src/extended_capabilities/designated_vendor_specific_extended_capability/compute_express_link/pcie_dvsec_for_cxl_device.rs:205-237 -/
def CxlCapability.ofU16 {ε : Type} (w : U16) : Res ε CxlCapability := runBits w do
  let cache_capable ← bit
  let io_capable ← bit
  let mem_capable ← bit
  let mem_hwinit_mode ← bit
  let hdm_count ← bits 2
  let cache_writeback_and_invalidate_capable ← bit
  let cxl_reset_capable ← bit
  let cxl_reset_timeout ← bits 3
  let cxl_reset_mem_clr_capable ← bit
  skip 1
  let multiple_logical_device ← bit
  let viral_capable ← bit
  let pm_init_completion_reporting_capable ← bit
  return do
    let hdm_count ← HdmCount.ofU8 hdm_count
    return {
      cache_capable := cache_capable, io_capable := io_capable, mem_capable := mem_capable,
      mem_hwinit_mode := mem_hwinit_mode, hdm_count := hdm_count,
      cache_writeback_and_invalidate_capable := cache_writeback_and_invalidate_capable,
      cxl_reset_capable := cxl_reset_capable,
      cxl_reset_timeout := CxlResetTimeout.ofU8 cxl_reset_timeout,
      cxl_reset_mem_clr_capable := cxl_reset_mem_clr_capable,
      multiple_logical_device := multiple_logical_device, viral_capable := viral_capable,
      pm_init_completion_reporting_capable := pm_init_completion_reporting_capable }

/-- src/extended_capabilities/designated_vendor_specific_extended_capability/compute_express_link/pcie_dvsec_for_cxl_device.rs:348-356 -/
def CacheSfCoverage.ofU8 {ε : Type} (b : U8) : Res ε CacheSfCoverage :=
  if b = 0 then .ok .NoSnoopFilter
  else if b.toNat ≤ 31 then .ok (.SnoopFilter (1 <<< (b.toNat + 15)))
  else .panic

/-- src/extended_capabilities/designated_vendor_specific_extended_capability/compute_express_link/pcie_dvsec_for_cxl_device.rs:387-401 -/
def CacheSfGranularity.ofU8 {ε : Type} (b : U8) : Res ε CacheSfGranularity :=
  match b.toNat with
  | 0b000 => .ok .Tracking64B
  | 0b001 => .ok .Tracking128B
  | 0b010 => .ok .Tracking256B
  | 0b011 => .ok .Tracking512B
  | 0b100 => .ok .Tracking1KB
  | 0b101 => .ok .Tracking2KB
  | 0b110 => .ok .Tracking4KB
  | 0b111 => .ok .Reserved
  | _ => .panic

/-- src/extended_capabilities/designated_vendor_specific_extended_capability/compute_express_link/pcie_dvsec_for_cxl_device.rs:412-420 -/
def CacheCleanEviction.ofBOOL (b : Bool) : CacheCleanEviction := if b then .NotNeeded else .Needed

/-- src/extended_capabilities/designated_vendor_specific_extended_capability/compute_express_link/pcie_dvsec_for_cxl_device.rs:314-337 -/
def CxlControl.ofU16 {ε : Type} (w : U16) : Res ε CxlControl := runBits w do
  let cache_enable ← bit
  let io_enable ← bit
  let mem_enable ← bit
  let cache_sf_coverage ← bits 5
  let cache_sf_granularity ← bits 3
  let cache_clean_eviction ← bit
  skip 2
  let viral_enable ← bit
  skip 1
  return do
    let cache_sf_coverage ← CacheSfCoverage.ofU8 cache_sf_coverage
    let cache_sf_granularity ← CacheSfGranularity.ofU8 cache_sf_granularity
    return {
      cache_enable := cache_enable, io_enable := io_enable, mem_enable := mem_enable,
      cache_sf_coverage := cache_sf_coverage, cache_sf_granularity := cache_sf_granularity,
      cache_clean_eviction := CacheCleanEviction.ofBOOL cache_clean_eviction,
      viral_enable := viral_enable }

/-- src/extended_capabilities/designated_vendor_specific_extended_capability/compute_express_link/pcie_dvsec_for_cxl_device.rs:358-365 -/
def CacheSfCoverage.toU8 : CacheSfCoverage → U8
  | .NoSnoopFilter => 0
  | .SnoopFilter v => (BitVec.ofNat 32 (trailingZeros v) - 15).setWidth 8

/-- src/extended_capabilities/designated_vendor_specific_extended_capability/compute_express_link/pcie_dvsec_for_cxl_device.rs:433-438 -/
def CxlStatus.ofU16 (w : U16) : CxlStatus := runBits w do
  skip 14
  let viral_status ← bit
  skip 1
  return { viral_status := viral_status }

/-- src/extended_capabilities/designated_vendor_specific_extended_capability/compute_express_link/pcie_dvsec_for_cxl_device.rs:458-474 -/
def CxlControl2.ofU16 (w : U16) : CxlControl2 := runBits w do
  let disable_caching ← bit
  let initiate_cache_write_back_and_invalidation ← bit
  let initiate_cxl_reset ← bit
  let cxl_reset_mem_clr_enable ← bit
  skip 12
  return {
    disable_caching := disable_caching,
    initiate_cache_write_back_and_invalidation := initiate_cache_write_back_and_invalidation,
    initiate_cxl_reset := initiate_cxl_reset,
    cxl_reset_mem_clr_enable := cxl_reset_mem_clr_enable }

/-- src/extended_capabilities/designated_vendor_specific_extended_capability/compute_express_link/pcie_dvsec_for_cxl_device.rs:493-509 -/
def CxlStatus2.ofU16 (w : U16) : CxlStatus2 := runBits w do
  let cache_invalid ← bit
  let cxl_reset_complete ← bit
  let cxl_reset_error ← bit
  skip 12
  let power_management_initialization_complete ← bit
  return {
    cache_invalid := cache_invalid, cxl_reset_complete := cxl_reset_complete,
    cxl_reset_error := cxl_reset_error,
    power_management_initialization_complete := power_management_initialization_complete }

/-- src/extended_capabilities/designated_vendor_specific_extended_capability/compute_express_link/pcie_dvsec_for_cxl_device.rs:523-528 -/
def CxlLock.ofU16 (w : U16) : CxlLock := runBits w do
  let config_lock ← bit
  skip 15
  return { config_lock := config_lock }

/-- src/extended_capabilities/designated_vendor_specific_extended_capability/compute_express_link/pcie_dvsec_for_cxl_device.rs:563-572 -/
def CacheSizeUnit.ofU8 (b : U8) : CacheSizeUnit :=
  match b.toNat with
  | 0b0000 => .NotReported
  | 0b0001 => .Unit64K
  | 0b0010 => .Unit1MB
  | _ => .Reserved b

/-- src/extended_capabilities/designated_vendor_specific_extended_capability/compute_express_link/pcie_dvsec_for_cxl_device.rs:541-549 -/
def CxlCapability2.ofU16 (w : U16) : CxlCapability2 := runBits w do
  let cache_size_unit ← bits 4
  skip 4
  let cache_size ← bits 8
  return { cache_size_unit := CacheSizeUnit.ofU8 cache_size_unit, cache_size := cache_size }

/-- src/extended_capabilities/designated_vendor_specific_extended_capability/compute_express_link/pcie_dvsec_for_cxl_device.rs:628-637 -/
def MediaType.ofU8 (b : U8) : MediaType :=
  match b.toNat with
  | 0b000 => .Volatile
  | 0b001 => .NonVolatile
  | 0b010 => .Cdat
  | _ => .Reserved b

/-- src/extended_capabilities/designated_vendor_specific_extended_capability/compute_express_link/pcie_dvsec_for_cxl_device.rs:651-660 -/
def MemoryClass.ofU8 (b : U8) : MemoryClass :=
  match b.toNat with
  | 0b000 => .Memory
  | 0b001 => .Storage
  | 0b010 => .Cdat
  | _ => .Reserved b

/-- src/extended_capabilities/designated_vendor_specific_extended_capability/compute_express_link/pcie_dvsec_for_cxl_device.rs:684-698 -/
def DesiredInterleave.ofU8 (b : U8) : DesiredInterleave :=
  match b.toNat with
  | 0b00000 => .NoInterleave
  | 0b00001 => .Granularity256B
  | 0b00010 => .Granularity4KB
  | 0b00011 => .Granularity512B
  | 0b00100 => .Granularity1KB
  | 0b00101 => .Granularity2KB
  | 0b00110 => .Granularity8KB
  | 0b00111 => .Granularity16KB
  | _ => .Reserved b

/-- src/extended_capabilities/designated_vendor_specific_extended_capability/compute_express_link/pcie_dvsec_for_cxl_device.rs:712-723 -/
def MemoryActiveTimeout.ofU8 (b : U8) : MemoryActiveTimeout :=
  match b.toNat with
  | 0b000 => .MaxTime1s
  | 0b001 => .MaxTime4s
  | 0b010 => .MaxTime16s
  | 0b011 => .MaxTime64s
  | 0b100 => .MaxTime256s
  | _ => .Reserved b

/-- src/extended_capabilities/designated_vendor_specific_extended_capability/compute_express_link/pcie_dvsec_for_cxl_device.rs:591-613 -/
def CxlRangeSize.new (low high : U32) : CxlRangeSize := runBits low do
  let memory_info_valid ← bit
  let memory_active ← bit
  let media_type ← bits 3
  let memory_class ← bits 3
  let desired_interleave ← bits 5
  let memory_active_timeout ← bits 3
  skip 12
  let memory_size_low : U64 ← bits 4
  let memory_size := (memory_size_low <<< 28) ||| (high.setWidth 64 <<< 32)
  return {
    memory_info_valid := memory_info_valid, memory_active := memory_active,
    media_type := MediaType.ofU8 media_type, memory_class := MemoryClass.ofU8 memory_class,
    desired_interleave := DesiredInterleave.ofU8 desired_interleave,
    memory_active_timeout := MemoryActiveTimeout.ofU8 memory_active_timeout,
    memory_size := memory_size }

/-- src/extended_capabilities/designated_vendor_specific_extended_capability/compute_express_link/pcie_dvsec_for_cxl_device.rs:736-740 -/
def CxlRangeBase.new (low high : U32) : CxlRangeBase where
  memory_base := low.setWidth 64 ||| (high.setWidth 64 <<< 32)

/-- src/extended_capabilities/designated_vendor_specific_extended_capability/compute_express_link.rs:52-55 -/
inductive ComputeExpressLinkError where
  | PcieDvsecForCxlDevice
  deriving DecidableEq, Repr

/-- src/extended_capabilities/designated_vendor_specific_extended_capability/compute_express_link.rs:59-71;
the structures without content are constructors without argument. -/
inductive ComputeExpressLink where
  | PcieDvsecForCxlDevice (v : PcieDvsecForCxlDevice)
  | NonCxlFunctionMapDvsec
  | Cxl20ExtensionsDvsecForPorts
  | GpfDvsecForCxlPorts
  | GpfDvsecForCxlDevices
  | PcieDvsecForFlexBusPort
  | RegisterLocatorDvsec
  | MldDvsec
  | PcieDvsecForTestCapability
  | Undefined (id : U16)
  deriving DecidableEq, Repr

/-- src/extended_capabilities/designated_vendor_specific_extended_capability/compute_express_link.rs:77-112 -/
def PcieDvsecForCxlDevice.ofBytes (slice : Bytes) :
    Res ComputeExpressLinkError PcieDvsecForCxlDevice := do
  (← BP.head (do
    let cxl_capability ← le16
    let cxl_control ← le16
    let cxl_status ← le16
    let cxl_control2 ← le16
    let cxl_status2 ← le16
    let cxl_lock ← le16
    let cxl_capability2 ← le16
    let range_1_size_high ← le32
    let range_1_size_low ← le32
    let range_1_base_high ← le32
    let range_1_base_low ← le32
    let range_2_size_high ← le32
    let range_2_size_low ← le32
    let range_2_base_high ← le32
    let range_2_base_low ← le32
    return (show Res ComputeExpressLinkError PcieDvsecForCxlDevice from do
      let cxl_capability ← CxlCapability.ofU16 cxl_capability
      let cxl_control ← CxlControl.ofU16 cxl_control
      return {
        cxl_capability := cxl_capability
        cxl_control := cxl_control
        cxl_status := CxlStatus.ofU16 cxl_status
        cxl_control2 := CxlControl2.ofU16 cxl_control2
        cxl_status2 := CxlStatus2.ofU16 cxl_status2
        cxl_lock := CxlLock.ofU16 cxl_lock
        cxl_capability2 := CxlCapability2.ofU16 cxl_capability2
        cxl_range_1_size := CxlRangeSize.new range_1_size_low range_1_size_high
        cxl_range_1_base := CxlRangeBase.new range_1_base_low range_1_base_high
        cxl_range_2_size := CxlRangeSize.new range_2_size_low range_2_size_high
        cxl_range_2_base := CxlRangeBase.new range_2_base_low range_2_base_high }))
    .PcieDvsecForCxlDevice slice)

/-- src/extended_capabilities/designated_vendor_specific_extended_capability/compute_express_link.rs:74-125 -/
def ComputeExpressLink.tryNew (slice : Bytes) (id : U16) :
    Res ComputeExpressLinkError ComputeExpressLink :=
  match id.toNat with
  | 0x00 => (PcieDvsecForCxlDevice.ofBytes slice).map' .PcieDvsecForCxlDevice
  | 0x02 => .ok .NonCxlFunctionMapDvsec
  | 0x03 => .ok .Cxl20ExtensionsDvsecForPorts
  | 0x04 => .ok .GpfDvsecForCxlPorts
  | 0x05 => .ok .GpfDvsecForCxlDevices
  | 0x07 => .ok .PcieDvsecForFlexBusPort
  | 0x08 => .ok .RegisterLocatorDvsec
  | 0x09 => .ok .MldDvsec
  | 0x0A => .ok .PcieDvsecForTestCapability
  | _ => .ok (.Undefined id)

end Pcics.ComputeExpressLink
