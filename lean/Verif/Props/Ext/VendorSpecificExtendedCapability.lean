import Verif.Spec.Ext.VendorSpecificExtendedCapability
import Verif.Lemmas.Tactics
import Verif.Lemmas.Bv
/- Properties of src/extended_capabilities/vendor_specific_extended_capability.rs -/

namespace Pcics.VendorSpecificExtendedCapability
open Spec

/-- C51: VSEC needs 4 bytes; its registers are the bytes up to the announced length, flagged when
the length is impossible or the data too short. -/
theorem VendorSpecificExtendedCapability_bytes (d : Bytes) :
    VendorSpecificExtendedCapability.ofBytes d =
      if 4 ≤ d.length then
        .ok { header := VsecHeader.spec d, registers := VsecRegisters.spec d }
      else .err ⟨"Vendor-Specific Extended Capability", 4⟩ := by
  by_cases h : 4 ≤ d.length
  · bytes_len [VendorSpecificExtendedCapability.ofBytes]
    have hh : (runBits (rd32 d 0) do
        let vsec_id ← bits 16
        let vsec_rev ← bits 4
        let vsec_length ← bits 12
        return ({ vsec_id := vsec_id, vsec_rev := vsec_rev, vsec_length := vsec_length } :
          VsecHeader)) = VsecHeader.spec d := by
      bits_simp [VsecHeader.spec]
    rw [hh]
    congr 2
    unfold VsecRegisters.spec
    dsimp only
    by_cases h8 : (VsecHeader.spec d).vsec_length.toNat < 8
    · rw [if_neg (by omega), if_pos h8]
    · rw [if_pos (by omega), if_neg h8]
      by_cases hl : (VsecHeader.spec d).vsec_length.toNat ≤ 4 + d.length
      · rw [if_pos (by omega), if_pos hl]
        simp only [VsecRegisters.Valid.injEq]
        rw [List.drop_take]
        congr 1
      · rw [if_neg (by omega), if_neg hl]
  · bytes_len [VendorSpecificExtendedCapability.ofBytes]

example : VendorSpecificExtendedCapability.ofBytes [0x34, 0x12, 0xa5, 0x00, 1, 2, 3] =
    .ok ⟨⟨0x1234, 5, 0xa⟩, .Valid [1, 2]⟩ := by decide +kernel
example : VendorSpecificExtendedCapability.ofBytes [0x34, 0x12, 0xc5, 0x00, 1, 2, 3] =
    .ok ⟨⟨0x1234, 5, 0xc⟩, .Incomplete [1, 2, 3]⟩ := by decide +kernel

end Pcics.VendorSpecificExtendedCapability
