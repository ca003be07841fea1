import Verif.Model.Common
/- Model of src/extended_capabilities/configuration_access_correlation.rs -/

namespace Pcics.ConfigurationAccessCorrelation

/-- src/extended_capabilities/configuration_access_correlation.rs:37-43 -/
structure ConfigurationAccessCorrelation where
  device_correlation : U32
  deriving DecidableEq, Repr

/-- src/extended_capabilities/configuration_access_correlation.rs:46-48 -/
def ConfigurationAccessCorrelation.SIZE : Nat := 8

/-- src/extended_capabilities/configuration_access_correlation.rs:50-55; the header placeholder is four ignored bytes -/
def ConfigurationAccessCorrelation.ofArray {ε : Type} (bytes : Bytes) : Res ε ConfigurationAccessCorrelation := do
  let device_correlation ← BP.arr (do
    let _ ← le32
    let device_correlation ← le32
    return device_correlation) bytes
  return { device_correlation := device_correlation }

/-- src/extended_capabilities/configuration_access_correlation.rs:57-67 -/
def ConfigurationAccessCorrelation.ofBytes (slice : Bytes) : Res ExtendedCapabilityDataError ConfigurationAccessCorrelation := do
  let head ← BP.head (bytesN ConfigurationAccessCorrelation.SIZE)
    { name := "Configuration Access Correlation", size := ConfigurationAccessCorrelation.SIZE } slice
  ConfigurationAccessCorrelation.ofArray head

end Pcics.ConfigurationAccessCorrelation
