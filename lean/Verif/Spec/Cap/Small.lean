import Verif.Model.Cap.Small
import Verif.Spec
/- Layout of the small fixed-size capabilities; `d` starts after the capability id and next pointer
(offset 2 of the structure), so structure offset `o` is `o - 2` here. -/

namespace Pcics
open Spec

/-- Advanced Features (Conventional PCI AF ECN): length at 2, capabilities 3, control 4, status 5. -/
def AdvancedFeatures.spec (d : Bytes) : AdvancedFeatures where
  length := byteAt d 0
  capabilities := {
    transactions_pending := flag (byteAt d 1) 0
    function_level_reset := flag (byteAt d 1) 1 }
  control := { initiate_flr := flag (byteAt d 2) 0 }
  status := { transactions_pending := flag (byteAt d 3) 0 }

/-- Bridge subsystem vendor id: SSVID at 4, SSID at 6. -/
def BridgeSubsystemVendorId.spec (d : Bytes) : BridgeSubsystemVendorId where
  reserved := rd16 d 0
  subsystem_vendor_id := rd16 d 2
  subsystem_id := rd16 d 4

/-- Debug port: offset bits 12:0, BAR number bits 15:13. -/
def DebugPort.spec (d : Bytes) : DebugPort where
  offset := fld (rd16 d 0) 0 13
  bar_number := fld (rd16 d 0) 13 3

/-- SATA capability register 1, BAR location. -/
def Sata.BarLocation.spec (c : U8) : Sata.BarLocation :=
  pick c [(4, .Bar0), (5, .Bar1), (6, .Bar2), (7, .Bar3), (8, .Bar4), (9, .Bar5),
    (15, .SataCapability1)] (.Reserved c)

/-- SATA: revision byte at 2, capability register 1 at 4. -/
def Sata.spec (d : Bytes) : Sata where
  revision := { minor := fld (byteAt d 0) 0 4, major := fld (byteAt d 0) 4 4 }
  bar_offset := { val := fld (rd32 d 2) 4 20 }
  bar_location := .spec (fld (rd32 d 2) 0 4)

/-- Slot identification: expansion slot register at 2, chassis number at 3. -/
def SlotIdentification.spec (d : Bytes) : SlotIdentification where
  expansion_slot := {
    expansion_slots_provided := fld (byteAt d 0) 0 5
    first_in_chassis := flag (byteAt d 0) 5 }
  chassis_number := byteAt d 1

/-- Vital product data: address bits 14:0 and flag bit 15 at 2, data at 4. -/
def VitalProductData.spec (d : Bytes) : VitalProductData where
  vpd_address := fld (rd16 d 0) 0 15
  transfer_completed := flag (rd16 d 0) 15
  vpd_data := rd32 d 2

end Pcics
