import Verif.Model.Ext.LatencyToleranceReporting
/- Model of src/extended_capabilities/l1_pm_substates.rs -/

namespace Pcics.L1PmSubstates
open LatencyToleranceReporting

/-- src/extended_capabilities/l1_pm_substates.rs:203-212 -/
inductive PortTPowerOnScale where
  | Time2us
  | Time10us
  | Time100us
  | Reserved
  deriving DecidableEq, Repr

/-- src/extended_capabilities/l1_pm_substates.rs:183-186 -/
structure PortTPowerOn where
  value : U8
  scale : PortTPowerOnScale
  deriving DecidableEq, Repr

/-- src/extended_capabilities/l1_pm_substates.rs:153-167 -/
structure L1PmSubstatesCapabilities where
  pci_pm_l1_2_supported : Bool
  pci_pm_l1_1_supported : Bool
  aspm_l1_2_supported : Bool
  aspm_l1_1_supported : Bool
  l1_pm_substates_supported : Bool
  port_common_mode_restore_time : U8
  port_t_power_on : PortTPowerOn
  deriving DecidableEq, Repr

/-- src/extended_capabilities/l1_pm_substates.rs:236-251 -/
structure L1PmSubstatesControl1 where
  pci_pm_l1_2_enable : Bool
  pci_pm_l1_1_enable : Bool
  aspm_l1_2_enable : Bool
  aspm_l1_1_enable : Bool
  common_mode_restore_time : U8
  ltr_l1_2_threshold : MaxLatency
  deriving DecidableEq, Repr

/-- src/extended_capabilities/l1_pm_substates.rs:265-268 -/
structure L1PmSubstatesControl2 where
  t_power_on : PortTPowerOn
  deriving DecidableEq, Repr

/-- src/extended_capabilities/l1_pm_substates.rs:69-76 -/
structure L1PmSubstates where
  l1_pm_substates_capabilities : L1PmSubstatesCapabilities
  l1_pm_substates_control_1 : L1PmSubstatesControl1
  l1_pm_substates_control_2 : L1PmSubstatesControl2
  deriving DecidableEq, Repr

/-- src/extended_capabilities/l1_pm_substates.rs:213-222 -/
def PortTPowerOnScale.ofU8 (b : U8) : PortTPowerOnScale :=
  match b.toNat with
  | 0b00 => .Time2us
  | 0b01 => .Time10us
  | 0b10 => .Time100us
  | _ => .Reserved

/-- src/extended_capabilities/l1_pm_substates.rs:223-232 -/
def PortTPowerOnScale.toU8 : PortTPowerOnScale → U8
  | .Time2us => 0
  | .Time10us => 1
  | .Time100us => 2
  | .Reserved => 3

/-- src/extended_capabilities/l1_pm_substates.rs:77-149 -/
def L1PmSubstates.ofBytes (slice : Bytes) : Res ExtendedCapabilityDataError L1PmSubstates := do
  let (capabilities, control_1, control_2) ← BP.head (do
    let capabilities ← le32
    let control_1 ← le32
    let control_2 ← le32
    return (capabilities, control_1, control_2)) { name := "L1 PM Substates", size := 12 } slice
  let capabilities : L1PmSubstatesCapabilities := runBits capabilities do
    let pci_pm_l1_2_supported ← bit
    let pci_pm_l1_1_supported ← bit
    let aspm_l1_2_supported ← bit
    let aspm_l1_1_supported ← bit
    let l1_pm_substates_supported ← bit
    skip 3
    let port_common_mode_restore_time ← bits 8
    let port_t_power_on_scale ← bits 2
    skip 1
    let port_t_power_on_value ← bits 5
    skip 8
    return {
      pci_pm_l1_2_supported := pci_pm_l1_2_supported
      pci_pm_l1_1_supported := pci_pm_l1_1_supported
      aspm_l1_2_supported := aspm_l1_2_supported
      aspm_l1_1_supported := aspm_l1_1_supported
      l1_pm_substates_supported := l1_pm_substates_supported
      port_common_mode_restore_time := port_common_mode_restore_time
      port_t_power_on := {
        value := port_t_power_on_value
        scale := PortTPowerOnScale.ofU8 port_t_power_on_scale } }
  let control_1 : L1PmSubstatesControl1 := runBits control_1 do
    let pci_pm_l1_2_enable ← bit
    let pci_pm_l1_1_enable ← bit
    let aspm_l1_2_enable ← bit
    let aspm_l1_1_enable ← bit
    skip 4
    let common_mode_restore_time ← bits 8
    let ltr_l1_2_threshold_value ← bits 10
    skip 3
    let ltr_l1_2_threshold_scale ← bits 3
    return {
      pci_pm_l1_2_enable := pci_pm_l1_2_enable
      pci_pm_l1_1_enable := pci_pm_l1_1_enable
      aspm_l1_2_enable := aspm_l1_2_enable
      aspm_l1_1_enable := aspm_l1_1_enable
      common_mode_restore_time := common_mode_restore_time
      ltr_l1_2_threshold := {
        value := ltr_l1_2_threshold_value
        scale := ltr_l1_2_threshold_scale } }
  let control_2 : L1PmSubstatesControl2 := runBits control_2 do
    let t_power_on_scale ← bits 2
    skip 1
    let t_power_on_value ← bits 5
    skip 24
    return {
      t_power_on := {
        value := t_power_on_value
        scale := PortTPowerOnScale.ofU8 t_power_on_scale } }
  return {
    l1_pm_substates_capabilities := capabilities
    l1_pm_substates_control_1 := control_1
    l1_pm_substates_control_2 := control_2 }

/-- src/extended_capabilities/l1_pm_substates.rs:202-212, the discriminants -/
def PortTPowerOnScale.asUsize : PortTPowerOnScale → Nat
  | .Time2us => 2
  | .Time10us => 10
  | .Time100us => 100
  | .Reserved => 0

/-- src/extended_capabilities/l1_pm_substates.rs:187-194 (at most 255 * 100, so no overflow) -/
def PortTPowerOn.value' (p : PortTPowerOn) : Option Nat :=
  match p.scale with
  | .Reserved => none
  | s => some (p.value.toNat * s.asUsize)

/-- src/extended_capabilities/l1_pm_substates.rs:195-199 -/
def PortTPowerOn.toU8 (data : PortTPowerOn) : U8 := (data.value <<< 3) ||| data.scale.toU8

/-- src/extended_capabilities/l1_pm_substates.rs:168-178 -/
def L1PmSubstatesCapabilities.toU32 (data : L1PmSubstatesCapabilities) : U32 :=
  let b0 : U8 := BitVec.ofNat 8 (b2n data.pci_pm_l1_2_supported)
    ||| (BitVec.ofNat 8 (b2n data.pci_pm_l1_1_supported) <<< 1)
    ||| (BitVec.ofNat 8 (b2n data.aspm_l1_2_supported) <<< 2)
    ||| (BitVec.ofNat 8 (b2n data.aspm_l1_1_supported) <<< 3)
    ||| (BitVec.ofNat 8 (b2n data.l1_pm_substates_supported) <<< 4)
  let b2 := data.port_t_power_on.toU8
  u32le b0 data.port_common_mode_restore_time b2 0x00

/-- src/extended_capabilities/l1_pm_substates.rs:252-261 -/
def L1PmSubstatesControl1.toU32 (data : L1PmSubstatesControl1) : U32 :=
  let b0 : U8 := BitVec.ofNat 8 (b2n data.pci_pm_l1_2_enable)
    ||| (BitVec.ofNat 8 (b2n data.pci_pm_l1_1_enable) <<< 1)
    ||| (BitVec.ofNat 8 (b2n data.aspm_l1_2_enable) <<< 2)
    ||| (BitVec.ofNat 8 (b2n data.aspm_l1_1_enable) <<< 3)
  let t := data.ltr_l1_2_threshold.toU16
  u32le b0 data.common_mode_restore_time (t.setWidth 8) ((t >>> 8).setWidth 8)

/-- src/extended_capabilities/l1_pm_substates.rs:269-273 -/
def L1PmSubstatesControl2.toU32 (data : L1PmSubstatesControl2) : U32 :=
  u32le data.t_power_on.toU8 0x00 0x00 0x00

end Pcics.L1PmSubstates
