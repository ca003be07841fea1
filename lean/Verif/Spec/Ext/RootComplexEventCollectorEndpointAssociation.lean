import Verif.Model.Ext.RootComplexEventCollectorEndpointAssociation
import Verif.Spec
/- Specification of src/extended_capabilities/root_complex_event_collector_endpoint_association.rs: positions and value tables. -/

namespace Pcics.RootComplexEventCollectorEndpointAssociation
open Spec

/-- `d` starts after the extended capability header. -/
def RootComplexEventCollectorEndpointAssociation.spec (d : Bytes) : RootComplexEventCollectorEndpointAssociation where
  association_bitmap_for_rcieps := rd32 d 0

end Pcics.RootComplexEventCollectorEndpointAssociation
