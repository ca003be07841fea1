import Verif.Spec.Ext.PageRequestInterface
import Verif.Lemmas.Tactics
import Verif.Lemmas.Bv
/- Properties of src/extended_capabilities/page_request_interface.rs -/

namespace Pcics.PageRequestInterface
open Spec

/-- C59: PageRequestInterface needs 12 bytes, every field is at its position. -/
theorem PageRequestInterface_bytes (d : Bytes) :
    PageRequestInterface.ofBytes d =
      if 12 ≤ d.length then .ok (PageRequestInterface.spec d)
      else .err ⟨"Page Request Interface", 12⟩ := by
  bytes_simp [PageRequestInterface.ofBytes]
  bits_simp [PageRequestInterface.spec]

example : PageRequestInterface.ofBytes [1, 0, 2, 0x81, 4, 3, 2, 1, 8, 7, 6, 5] =
    .ok ⟨⟨true, false⟩, ⟨false, true, true, true⟩, 0x01020304, 0x05060708⟩ := by decide +kernel

end Pcics.PageRequestInterface
