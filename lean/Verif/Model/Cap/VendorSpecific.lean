import Verif.Model.Common
/- Model of src/capabilities/vendor_specific.rs -/

namespace Pcics.VendorSpecific

/-- src/capabilities/vendor_specific.rs:101-112 -/
inductive Virtio where
  | CommonCfg (bar : U8) (offset : U32) (size : U32)
  | Notify (bar : U8) (offset : U32) (size : U32) (multiplier : Option U32)
  | Isr (bar : U8) (offset : U32) (size : U32)
  | DeviceCfg (bar : U8) (offset : U32) (size : U32)
  | Unknown (bar : U8) (offset : U32) (size : U32)
  deriving DecidableEq, Repr

/-- src/capabilities/vendor_specific.rs:54-63 -/
inductive VendorSpecificError where
  | LengthUnreadable
  | Length (val : U8)
  | Data (size : Nat)
  | Virtio
  deriving DecidableEq, Repr

/-- src/capabilities/vendor_specific.rs:66-71 -/
inductive VendorSpecific where
  | Unspecified (v : Bytes)
  | Virtio (v : Virtio)
  deriving DecidableEq, Repr

/-- src/capabilities/vendor_specific.rs:119 -/
def Virtio.SIZE : Nat := 1 + 1 + 3 + 4 + 4

/-- src/capabilities/vendor_specific.rs:123-142 -/
def Virtio.ofBytes (slice : Bytes) : Res VendorSpecificError Virtio := do
  let bytes ← Res.okOr .Virtio (getTo slice SIZE)
  let (cfg_type, bar, offset, size) ← BP.arr (do
    let cfg_type ← le8
    let bar ← le8
    let _padding ← bytesN 3
    let offset ← le32
    let size ← le32
    return (cfg_type, bar, offset, size)) bytes
  match cfg_type.toNat with
  | 1 => return .CommonCfg bar offset size
  | 2 =>
    let multiplier := (getRange slice SIZE (SIZE + 4)).bind fun s => (le32 s).map Prod.fst
    return .Notify bar offset size multiplier
  | 3 => return .Isr bar offset size
  | 4 => return .DeviceCfg bar offset size
  | _ => return .Unknown bar offset size

/-- src/capabilities/vendor_specific.rs:74-92; of the header only the vendor and device ids are
used. -/
def VendorSpecific.tryNew (slice : Bytes) (vendor_id device_id : U16) :
    Res VendorSpecificError VendorSpecific := do
  let l ← Res.okOr .LengthUnreadable slice.head?
  let size ← if l.toNat < 2 then .err (.Length l) else .ok (l.toNat - 2)
  let slice ← Res.okOr (.Data size) (getRange slice 1 size)
  if vendor_id = 0x1af4 ∧ 0x1000 ≤ device_id.toNat ∧ device_id.toNat ≤ 0x107f then
    let v ← Virtio.ofBytes slice
    return .Virtio v
  else
    return .Unspecified slice

end Pcics.VendorSpecific
