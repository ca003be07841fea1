import Verif.Model.Common
/- Model of src/extended_capabilities/root_complex_event_collector_endpoint_association.rs -/

namespace Pcics.RootComplexEventCollectorEndpointAssociation

/-- src/extended_capabilities/root_complex_event_collector_endpoint_association.rs:38-43 -/
structure RootComplexEventCollectorEndpointAssociation where
  association_bitmap_for_rcieps : U32
  deriving DecidableEq, Repr

/-- src/extended_capabilities/root_complex_event_collector_endpoint_association.rs:45-47 -/
def RootComplexEventCollectorEndpointAssociation.SIZE : Nat := 4

/-- src/extended_capabilities/root_complex_event_collector_endpoint_association.rs:49-56 -/
def RootComplexEventCollectorEndpointAssociation.ofArray {ε : Type} (bytes : Bytes) : Res ε RootComplexEventCollectorEndpointAssociation := do
  let association_bitmap_for_rcieps ← BP.arr (do
    let association_bitmap_for_rcieps ← le32
    return association_bitmap_for_rcieps) bytes
  return { association_bitmap_for_rcieps := association_bitmap_for_rcieps }

/-- src/extended_capabilities/root_complex_event_collector_endpoint_association.rs:58-68 -/
def RootComplexEventCollectorEndpointAssociation.ofBytes (slice : Bytes) : Res ExtendedCapabilityDataError RootComplexEventCollectorEndpointAssociation := do
  let head ← BP.head (bytesN RootComplexEventCollectorEndpointAssociation.SIZE)
    { name := "Root Complex Event Collector Endpoint Association", size := RootComplexEventCollectorEndpointAssociation.SIZE } slice
  RootComplexEventCollectorEndpointAssociation.ofArray head

end Pcics.RootComplexEventCollectorEndpointAssociation
