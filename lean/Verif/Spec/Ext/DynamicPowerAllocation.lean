import Verif.Model.Ext.DynamicPowerAllocation
import Verif.Spec
/- Specification of the registers in src/extended_capabilities/dynamic_power_allocation.rs: positions and value tables. -/

namespace Pcics.DynamicPowerAllocation
open Spec

/-- Values of `TransitionLatencyUnit`. -/
def TransitionLatencyUnit.spec (c : U8) : TransitionLatencyUnit :=
  pick c [(0, .Unit1ms), (1, .Unit10ms), (2, .Unit100ms)] .Reserved

/-- Values of `PowerAllocationScale`. -/
def PowerAllocationScale.spec (c : U8) : PowerAllocationScale :=
  pick c [(0, .Mul10), (1, .Mul1_0), (2, .Mul0_1)] .Mul0_01

/-- Layout of `DpaCapability`. -/
def DpaCapability.spec (w : U32) : DpaCapability :=
  {
    substate_max := fld w 0 5, transition_latency_unit := TransitionLatencyUnit.spec (fld w 8 2),
    power_allocation_scale := PowerAllocationScale.spec (fld w 12 2),
    transition_latency_value_0 := fld w 16 8, transition_latency_value_1 := fld w 24 8 }

/-- Layout of `DpaStatus`. -/
def DpaStatus.spec (w : U16) : DpaStatus :=
  { substate_status := fld w 0 5, substate_control_enabled := flag w 8 }

/-- Layout of `DpaControl`. -/
def DpaControl.spec (w : U16) : DpaControl :=
  { substate_control := fld w 0 5 }

/-- Number of substates (one byte of the power allocation array each) announced by the DPA
Capability register: Substate_Max plus one. -/
def substates (d : Bytes) : Nat := (fld (rd32 d 4) 0 5 : U8).toNat + 1

/-- Layout of the structure (offsets with the header). -/
def DynamicPowerAllocation.spec (d : Bytes) : DynamicPowerAllocation :=
  {
    dpa_capability := DpaCapability.spec (rd32 d 4), dpa_latency_indicator := rd32 d 8,
    dpa_status := DpaStatus.spec (rd16 d 12), dpa_control := DpaControl.spec (rd16 d 14),
    dpa_power_allocation_array := ⟨(d.drop 16).take (substates d)⟩ }

end Pcics.DynamicPowerAllocation
