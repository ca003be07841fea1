import Verif.Model.Ext.ConfigurationAccessCorrelation
import Verif.Spec
/- Specification of src/extended_capabilities/configuration_access_correlation.rs: positions and value tables. -/

namespace Pcics.ConfigurationAccessCorrelation
open Spec

/-- `d` starts with the extended capability header. -/
def ConfigurationAccessCorrelation.spec (d : Bytes) : ConfigurationAccessCorrelation where
  device_correlation := rd32 d 4

end Pcics.ConfigurationAccessCorrelation
