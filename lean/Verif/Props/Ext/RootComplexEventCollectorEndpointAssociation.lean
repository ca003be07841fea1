import Verif.Spec.Ext.RootComplexEventCollectorEndpointAssociation
import Verif.Lemmas.Tactics
import Verif.Lemmas.Bv
/- Properties of src/extended_capabilities/root_complex_event_collector_endpoint_association.rs -/

namespace Pcics.RootComplexEventCollectorEndpointAssociation
open Spec

/-- C59: RootComplexEventCollectorEndpointAssociation needs 4 bytes, every register is at its offset. -/
theorem RootComplexEventCollectorEndpointAssociation_bytes (d : Bytes) :
    RootComplexEventCollectorEndpointAssociation.ofBytes d =
      if 4 ≤ d.length then .ok (RootComplexEventCollectorEndpointAssociation.spec d) else .err ⟨"Root Complex Event Collector Endpoint Association", 4⟩ := by
  by_cases h : 4 ≤ d.length <;> bytes_len [RootComplexEventCollectorEndpointAssociation.ofBytes, RootComplexEventCollectorEndpointAssociation.ofArray, RootComplexEventCollectorEndpointAssociation.SIZE, RootComplexEventCollectorEndpointAssociation.spec]

example : RootComplexEventCollectorEndpointAssociation.ofBytes [0x11, 0x22, 0x33, 0x44, 9] =
    .ok ⟨0x44332211⟩ := by decide +kernel

end Pcics.RootComplexEventCollectorEndpointAssociation
