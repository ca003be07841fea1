import Verif.Lemmas.Reads
import Verif.Spec.Ext.ProcessAddressSpaceId
import Verif.Lemmas.Tactics
import Verif.Lemmas.Bv
/- Properties of src/extended_capabilities/process_address_space_id.rs -/

namespace Pcics.ProcessAddressSpaceId
open Spec

/-- C59: every field of `PacidCapability` is at its bit position. -/
theorem PacidCapability_layout (w : U16) :
    PacidCapability.ofU16 w = PacidCapability.spec w := by
  bits_simp [PacidCapability.ofU16, PacidCapability.spec]

/-- C59: every field of `PacidControl` is at its bit position. -/
theorem PacidControl_layout (w : U16) :
    PacidControl.ofU16 w = PacidControl.spec w := by
  bits_simp [PacidControl.ofU16, PacidControl.spec]

/-- C59: ProcessAddressSpaceId needs 4 bytes, every register is at its offset. -/
theorem ProcessAddressSpaceId_bytes (d : Bytes) :
    ProcessAddressSpaceId.ofBytes d =
      if 4 ≤ d.length then .ok (ProcessAddressSpaceId.spec d) else .err ⟨"Process Address Space ID", 4⟩ := by
  bytes_simp [ProcessAddressSpaceId.ofBytes, PacidCapability_layout, PacidControl_layout, ProcessAddressSpaceId.spec]

example : ProcessAddressSpaceId.ofBytes [0x02, 0x14, 0x05, 0x00] =
    .ok ⟨⟨true, false, 20⟩, ⟨true, false, true⟩⟩ := by decide +kernel

/-! ### C76 -/

/-- C76: `PacidCapability` registers decode to the same value exactly when they agree in bits 1-2,
8-12. -/
theorem PacidCapability_reads (a b : U16) :
    PacidCapability.ofU16 a = PacidCapability.ofU16 b ↔
      a &&& 0x1f06#16 = b &&& 0x1f06#16 := by
  reads [PacidCapability_layout, PacidCapability.spec, PacidCapability.mk.injEq]

/-- C76: `PacidControl` registers decode to the same value exactly when they agree in bits 0-2. -/
theorem PacidControl_reads (a b : U16) :
    PacidControl.ofU16 a = PacidControl.ofU16 b ↔
      a &&& 0x0007#16 = b &&& 0x0007#16 := by
  reads [PacidControl_layout, PacidControl.spec, PacidControl.mk.injEq]

/-- A reserved bit makes no difference to `PacidCapability`, a defined one does. -/
example : PacidCapability.ofU16 0x3f1f = PacidCapability.ofU16 0xbf1f ∧
    PacidCapability.ofU16 0x3f1f ≠ PacidCapability.ofU16 0x3d1f :=
  ⟨(PacidCapability_reads _ _).2 (by decide), fun h => absurd ((PacidCapability_reads _ _).1 h) (by decide)⟩

end Pcics.ProcessAddressSpaceId
