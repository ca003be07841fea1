import Verif.Model.Cap.PowerManagementInterface
import Verif.Spec
/- Specification of src/capabilities/power_management_interface.rs: positions and value tables. -/

namespace Pcics.PowerManagementInterface
open Spec

/-- Values of `AuxCurrent`. -/
def AuxCurrent.spec (c : U8) : AuxCurrent :=
  pick c [(0, .SelfPowered), (1, .MaxCurrent55mA), (2, .MaxCurrent100mA),
    (3, .MaxCurrent160mA), (4, .MaxCurrent220mA), (5, .MaxCurrent270mA), (6, .MaxCurrent320mA)]
    .MaxCurrent375mA

/-- Values of `PowerState`. -/
def PowerState.spec (c : U8) : PowerState :=
  pick c [(0, .D0), (1, .D1), (2, .D2)] .D3Hot

/-- Values of `DataSelect`. -/
def DataSelect.spec (c : U8) : DataSelect :=
  pick c [(0, .PowerConsumedD0), (1, .PowerConsumedD1), (2, .PowerConsumedD2),
    (3, .PowerConsumedD3), (4, .PowerDissipatedD0), (5, .PowerDissipatedD1),
    (6, .PowerDissipatedD2), (7, .PowerDissipatedD3), (8, .CommonLogic)] (.Reserved c)

/-- Values of `DataScale`. -/
def DataScale.spec (c : U8) : DataScale :=
  pick c [(0, .Unknown), (1, .Tenth), (2, .Hundredth)] .Thousandth

/-- Power Management Capabilities (PMC) register. -/
def Capabilities.spec (w : U16) : Capabilities where
  version := fld w 0 3
  pme_clock := flag w 3
  immediate_readiness_on_return_to_d0 := flag w 4
  device_specific_initialization := flag w 5
  aux_current := .spec (fld w 6 3)
  d1_support := flag w 9
  d2_support := flag w 10
  pme_support := {
    d0 := flag w 11
    d1 := flag w 12
    d2 := flag w 13
    d3_hot := flag w 14
    d3_cold := flag w 15 }

/-- Power Management Control/Status (PMCSR) register. -/
def Control.spec (w : U16) : Control where
  power_state := .spec (fld w 0 2)
  no_soft_reset := flag w 3
  pme_enabled := flag w 8
  data_select := .spec (fld w 9 4)
  data_scale := .spec (fld w 13 2)
  pme_status := flag w 15

/-- PMCSR bridge support extensions. -/
def Bridge.spec (w : U8) : Bridge where
  reserved := fld w 0 6
  b2_b3 := flag w 6
  bpcc_enabled := flag w 7

/-- `d` starts at offset 2 of the structure. -/
def PowerManagementInterface.spec (d : Bytes) : PowerManagementInterface where
  capabilities := .spec (rd16 d 0)
  control := .spec (rd16 d 2)
  bridge := .spec (byteAt d 4)
  data := byteAt d 5

end Pcics.PowerManagementInterface
