import Verif.Model.Common
/- Model of src/extended_capabilities/device_serial_number.rs -/

namespace Pcics.DeviceSerialNumber

/-- src/extended_capabilities/device_serial_number.rs:34-39 -/
structure DeviceSerialNumber where
  lower_dword : U32
  upper_dword : U32
  deriving DecidableEq, Repr

/-- src/extended_capabilities/device_serial_number.rs:40-58 -/
def DeviceSerialNumber.ofBytes (slice : Bytes) : Res ExtendedCapabilityDataError DeviceSerialNumber := do
  let (lower_dword, upper_dword) ← BP.head (do
    let lower_dword ← le32
    let upper_dword ← le32
    return (lower_dword, upper_dword))
    { name := "Device Serial Number", size := 8 } slice
  return { lower_dword := lower_dword, upper_dword := upper_dword }

end Pcics.DeviceSerialNumber
