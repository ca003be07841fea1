import Verif.Model.Cap.VendorSpecific
import Verif.Spec
/- Specification of src/capabilities/vendor_specific.rs: positions and value tables. -/

namespace Pcics.VendorSpecific
open Spec

/-- Virtio structure (virtio over PCI); `d` starts at its `cfg_type` byte.  The notify
multiplier is optional. -/
def Virtio.spec (d : Bytes) : Virtio :=
  let bar := byteAt d 1
  let offset := rd32 d 5
  let size := rd32 d 9
  pick (byteAt d 0)
    [(1, .CommonCfg bar offset size),
     (2, .Notify bar offset size (if 17 ≤ d.length then some (rd32 d 13) else none)),
     (3, .Isr bar offset size),
     (4, .DeviceCfg bar offset size)]
    (.Unknown bar offset size)

/-- Vendor specific payload: the length byte at `d[0]` counts from the capability id, two bytes
before `d`. -/
def payload (d : Bytes) : Bytes := (d.drop 1).take ((byteAt d 0).toNat - 3)

end Pcics.VendorSpecific
