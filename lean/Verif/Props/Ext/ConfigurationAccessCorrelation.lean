import Verif.Spec.Ext.ConfigurationAccessCorrelation
import Verif.Lemmas.Tactics
import Verif.Lemmas.Bv
/- Properties of src/extended_capabilities/configuration_access_correlation.rs -/

namespace Pcics.ConfigurationAccessCorrelation
open Spec

/-- C59: ConfigurationAccessCorrelation needs 8 bytes, every register is at its offset. -/
theorem ConfigurationAccessCorrelation_bytes (d : Bytes) :
    ConfigurationAccessCorrelation.ofBytes d =
      if 8 ≤ d.length then .ok (ConfigurationAccessCorrelation.spec d) else .err ⟨"Configuration Access Correlation", 8⟩ := by
  by_cases h : 8 ≤ d.length <;> bytes_len [ConfigurationAccessCorrelation.ofBytes, ConfigurationAccessCorrelation.ofArray, ConfigurationAccessCorrelation.SIZE, ConfigurationAccessCorrelation.spec]

example : ConfigurationAccessCorrelation.ofBytes [0x0c, 0, 1, 0, 0x11, 0x22, 0x33, 0x44, 9] =
    .ok ⟨0x44332211⟩ := by decide +kernel

end Pcics.ConfigurationAccessCorrelation
