import Verif.Model.Ext.L1PmSubstates
import Verif.Spec
/- Specification of src/extended_capabilities/l1_pm_substates.rs: positions and value tables. -/

namespace Pcics.L1PmSubstates
open Spec

/-- Values of `PortTPowerOnScale`. -/
def PortTPowerOnScale.spec (c : U8) : PortTPowerOnScale :=
  pick c [(0, .Time2us), (1, .Time10us), (2, .Time100us)] .Reserved

/-- Layout of the L1 PM Substates registers; `d` starts after the extended capability header. -/
def L1PmSubstates.spec (d : Bytes) : L1PmSubstates :=
  let cap := rd32 d 0
  let ctl1 := rd32 d 4
  let ctl2 := rd32 d 8
  { l1_pm_substates_capabilities := {
      pci_pm_l1_2_supported := flag cap 0
      pci_pm_l1_1_supported := flag cap 1
      aspm_l1_2_supported := flag cap 2
      aspm_l1_1_supported := flag cap 3
      l1_pm_substates_supported := flag cap 4
      port_common_mode_restore_time := fld cap 8 8
      port_t_power_on := { scale := .spec (fld cap 16 2), value := fld cap 19 5 } }
    l1_pm_substates_control_1 := {
      pci_pm_l1_2_enable := flag ctl1 0
      pci_pm_l1_1_enable := flag ctl1 1
      aspm_l1_2_enable := flag ctl1 2
      aspm_l1_1_enable := flag ctl1 3
      common_mode_restore_time := fld ctl1 8 8
      ltr_l1_2_threshold := { value := fld ctl1 16 10, scale := fld ctl1 29 3 } }
    l1_pm_substates_control_2 := {
      t_power_on := { scale := .spec (fld ctl2 0 2), value := fld ctl2 3 5 } } }

end Pcics.L1PmSubstates
