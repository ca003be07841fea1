import Verif.Lemmas.Reads
import Verif.Spec.Ext.AddressTranslationServices
import Verif.Lemmas.Tactics
import Verif.Lemmas.Bv
/- Properties of src/extended_capabilities/address_translation_services.rs -/

namespace Pcics.AddressTranslationServices
open Spec

/-- C59: every field of `AtsCapability` is at its bit position. -/
theorem AtsCapability_layout (w : U16) :
    AtsCapability.ofU16 w = AtsCapability.spec w := by
  bits_simp [AtsCapability.ofU16, AtsCapability.spec]

/-- C59: every field of `AtsControl` is at its bit position. -/
theorem AtsControl_layout (w : U16) :
    AtsControl.ofU16 w = AtsControl.spec w := by
  bits_simp [AtsControl.ofU16, AtsControl.spec]

/-- C59: AddressTranslationServices needs 4 bytes, every register is at its offset. -/
theorem AddressTranslationServices_bytes (d : Bytes) :
    AddressTranslationServices.ofBytes d =
      if 4 ≤ d.length then .ok (AddressTranslationServices.spec d) else .err ⟨"Address Translation Services", 4⟩ := by
  bytes_simp [AddressTranslationServices.ofBytes, AtsCapability_layout, AtsControl_layout, AddressTranslationServices.spec]

example : AddressTranslationServices.ofBytes [0x20, 0x00, 0x01, 0x80] =
    .ok ⟨⟨0, true, false⟩, ⟨1, true⟩⟩ := by decide +kernel

/-! ### C76 -/

/-- C76: `AtsCapability` registers decode to the same value exactly when they agree in bits 0-6.
-/
theorem AtsCapability_reads (a b : U16) :
    AtsCapability.ofU16 a = AtsCapability.ofU16 b ↔
      a &&& 0x007f#16 = b &&& 0x007f#16 := by
  reads [AtsCapability_layout, AtsCapability.spec, AtsCapability.mk.injEq]

/-- C76: `AtsControl` registers decode to the same value exactly when they agree in bits 0-4, 15.
-/
theorem AtsControl_reads (a b : U16) :
    AtsControl.ofU16 a = AtsControl.ofU16 b ↔
      a &&& 0x801f#16 = b &&& 0x801f#16 := by
  reads [AtsControl_layout, AtsControl.spec, AtsControl.mk.injEq]

/-- A reserved bit makes no difference to `AtsCapability`, a defined one does. -/
example : AtsCapability.ofU16 0xc6a5 = AtsCapability.ofU16 0x46a5 ∧
    AtsCapability.ofU16 0xc6a5 ≠ AtsCapability.ofU16 0xc6ad :=
  ⟨(AtsCapability_reads _ _).2 (by decide), fun h => absurd ((AtsCapability_reads _ _).1 h) (by decide)⟩

end Pcics.AddressTranslationServices
