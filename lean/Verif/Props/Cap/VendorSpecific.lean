import Verif.Spec.Cap.VendorSpecific
import Verif.Lemmas.Tactics
import Verif.Lemmas.Bv
/- Properties of src/capabilities/vendor_specific.rs -/

namespace Pcics.VendorSpecific
open Spec

/-- C38: a virtio structure needs 13 bytes. -/
theorem Virtio_bytes (d : Bytes) :
    Virtio.ofBytes d = if 13 ≤ d.length then .ok (Virtio.spec d) else .err .Virtio := by
  unfold Virtio.ofBytes
  by_cases h : 13 ≤ d.length
  · bytes_len [Virtio.SIZE]
    simp only [Virtio.spec, pick, BitVec.toNat_eq]
    by_cases h17 : 17 ≤ d.length <;> bytes_len [] <;> split <;> simp_all
  · bytes_len [Virtio.SIZE]

/-- C38: an empty slice has no length byte. -/
theorem VendorSpecific_empty (v dev : U16) :
    VendorSpecific.tryNew [] v dev = .err .LengthUnreadable := rfl

/-- C38: with a declared length `l` (counting from the capability id) the payload is exactly the
`l - 3` bytes after the length byte; a length below 3 or data that does not reach the declared
length is an error; bytes after the declared length are never used. -/
theorem VendorSpecific_bytes (d : Bytes) (v dev : U16) (h : d ≠ []) :
    VendorSpecific.tryNew d v dev =
      let l := (byteAt d 0).toNat
      if l < 2 then .err (.Length (byteAt d 0))
      else if l < 3 ∨ d.length + 2 < l then .err (.Data (l - 2))
      else if v = 0x1af4 ∧ 0x1000 ≤ dev.toNat ∧ dev.toNat ≤ 0x107f then
        if l < 16 then .err .Virtio else .ok (.Virtio (Virtio.spec (payload d)))
      else .ok (.Unspecified (payload d)) := by
  obtain ⟨b, t, rfl⟩ := List.exists_cons_of_ne_nil h
  have hb : byteAt (b :: t) 0 = b := rfl
  simp only [VendorSpecific.tryNew, List.head?_cons, hb, payload]
  by_cases h2 : b.toNat < 2
  · bytes_len []
  · by_cases h3 : b.toNat < 3 ∨ t.length + 3 < b.toNat
    · bytes_len [List.length_cons]
    · have e : List.take (b.toNat - 2 - 1) (List.drop 1 (b :: t))
          = List.take (b.toNat - 3) (List.drop 1 (b :: t)) := by congr 1
      bytes_len [List.length_cons, e, Virtio_bytes]
      by_cases hv : v = 0x1af4 ∧ 0x1000 ≤ dev.toNat ∧ dev.toNat ≤ 0x107f
      · simp only [hv, and_self, if_true]
        by_cases h16 : b.toNat < 16
        · bytes_len [List.length_cons]
        · bytes_len [List.length_cons]
      · simp only [hv, if_false]

/-- C38: the payload has exactly the declared number of bytes. -/
theorem VendorSpecific_payload_length (d : Bytes) (v dev : U16) (p : Bytes)
    (h : VendorSpecific.tryNew d v dev = .ok (.Unspecified p)) :
    p.length + 3 = (byteAt d 0).toNat ∧ ∀ i, i < p.length → p[i]? = d[i + 1]? := by
  by_cases hd : d = []
  · subst hd; simp [VendorSpecific.tryNew, Res.okOr] at h
  · rw [VendorSpecific_bytes d v dev hd] at h
    dsimp only at h
    split at h <;> [skip; split at h <;> [skip; split at h <;> [split at h; skip]]] <;>
      simp only [reduceCtorEq, Res.ok.injEq, VendorSpecific.Unspecified.injEq] at h
    subst h
    constructor
    · simp only [payload, List.length_take, List.length_drop]; omega
    · intro i hi
      simp only [payload, List.length_take, List.length_drop] at hi
      simp only [payload, List.getElem?_take, List.getElem?_drop]
      rw [if_pos (by omega), Nat.add_comm]

example : VendorSpecific.tryNew [5, 0xaa, 0xbb, 0xcc] 0x8086 1 =
    .ok (.Unspecified [0xaa, 0xbb]) := by decide +kernel

example : VendorSpecific.tryNew [0x14, 2, 4, 0, 0, 0, 0, 0x30, 0, 0, 0, 0x10, 0, 0, 4, 0, 0, 0]
    0x1af4 0x1041 = .ok (.Virtio (.Notify 4 0x3000 0x1000 (some 4))) := by decide +kernel

end Pcics.VendorSpecific
