import Verif.Model.Ext.DeviceSerialNumber
import Verif.Spec
/- Specification of src/extended_capabilities/device_serial_number.rs: positions and value tables. -/

namespace Pcics.DeviceSerialNumber
open Spec

/-- `d` starts after the extended capability header. -/
def DeviceSerialNumber.spec (d : Bytes) : DeviceSerialNumber where
  lower_dword := rd32 d 0
  upper_dword := rd32 d 4

end Pcics.DeviceSerialNumber
