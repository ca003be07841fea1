import Verif.Spec.Ext.DesignatedVendorSpecificExtendedCapability
import Verif.Props.Ext.ComputeExpressLink
import Verif.Lemmas.Bv
/- Properties of src/extended_capabilities/designated_vendor_specific_extended_capability.rs -/

namespace Pcics.DesignatedVendorSpecificExtendedCapability
open Spec

/-- C51, C57: DVSEC needs 10 bytes (with header) and a length from 10 to the available size; the
registers are bytes 0x0a..length. -/
theorem Dvsec_bytes (d : Bytes) :
    DesignatedVendorSpecificExtendedCapability.ofBytes d =
      if d.length < 10 then .err .Mandatory
      else if (fld (rd32 d 4) 20 12 : U16).toNat < 10 ∨
          d.length < (fld (rd32 d 4) 20 12 : U16).toNat then
        .err (.VendorSpecificRegisters (fld (rd32 d 4) 0 16) (fld (rd32 d 4) 16 4)
          (fld (rd32 d 4) 20 12) (rd16 d 8) d.length)
      else
        match DvsecType.spec d with
        | .ok t => .ok (.spec d t)
        | .err e => .err e
        | .panic => .panic := by
  by_cases h : d.length < 10
  · rw [if_pos h]
    have : ¬ 10 ≤ d.length := by omega
    bytes_len [DesignatedVendorSpecificExtendedCapability.ofBytes]
  rw [if_neg h]
  have h10 : 10 ≤ d.length := by omega
  have hh : (runBits (rd32 d 4) (do
      let dvsec_vendor_id ← bits 16
      let dvsec_revision ← bits 4
      let dvsec_length ← bits 12
      return (dvsec_vendor_id, dvsec_revision, dvsec_length) : BR (U16 × U8 × U16))) =
      (fld (rd32 d 4) 0 16, fld (rd32 d 4) 16 4, fld (rd32 d 4) 20 12) := by
    bits_simp []
  bytes_len [DesignatedVendorSpecificExtendedCapability.ofBytes, hh]
  by_cases hl : (fld (rd32 d 4) 20 12 : U16).toNat < 10 ∨
      d.length < (fld (rd32 d 4) 20 12 : U16).toNat
  · rw [if_pos hl, if_neg (by omega)]
  · rw [if_neg hl, if_pos (by omega)]
    unfold DvsecType.spec dvsecRegisters
    rw [List.drop_take]
    by_cases hv : (fld (rd32 d 4) 0 16 : U16) = 0x1e98
    · rw [if_pos hv, if_pos hv, ComputeExpressLink.ComputeExpressLink_ids]
      cases ComputeExpressLink.ComputeExpressLink.spec _ _ <;> rfl
    · rw [if_neg hv, if_neg hv]; rfl

example : DesignatedVendorSpecificExtendedCapability.ofBytes
    [0x23, 0, 1, 0, 0x34, 0x12, 0xc5, 0, 7, 0, 0xaa, 0xbb, 0xcc] =
    .ok ⟨0x1234, 5, 12, 7, .Unspecified [0xaa, 0xbb]⟩ := by decide +kernel

end Pcics.DesignatedVendorSpecificExtendedCapability
