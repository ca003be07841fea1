import Verif.Spec.Ext.DeviceSerialNumber
import Verif.Lemmas.Tactics
import Verif.Lemmas.Bv
/- Properties of src/extended_capabilities/device_serial_number.rs -/

namespace Pcics.DeviceSerialNumber
open Spec

/-- C59: DeviceSerialNumber needs 8 bytes, every register is at its offset. -/
theorem DeviceSerialNumber_bytes (d : Bytes) :
    DeviceSerialNumber.ofBytes d =
      if 8 ≤ d.length then .ok (DeviceSerialNumber.spec d) else .err ⟨"Device Serial Number", 8⟩ := by
  bytes_simp [DeviceSerialNumber.ofBytes, DeviceSerialNumber.spec]

example : DeviceSerialNumber.ofBytes [0x11, 0x22, 0x33, 0x44, 0x55, 0x66, 0x77, 0x88] =
    .ok ⟨0x44332211, 0x88776655⟩ := by decide +kernel

end Pcics.DeviceSerialNumber
