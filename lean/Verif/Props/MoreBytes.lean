import Verif.Props.ExtendedTexts
import Verif.Lemmas.Frame
/- Theorems about regions of which more bytes are readable -/

namespace Pcics
open Spec

/-! ## Texts of longer data -/

theorem agree_append (d e : Bytes) : agree d.length d (d ++ e) := by
  refine ⟨Nat.le_refl _, by simp, fun i hi => ?_⟩
  simp [byteAt, List.getElem?_append_left hi]

theorem or_none {a b : Option String} : (a <|> b) = none ↔ a = none ∧ b = none := by
  cases a <;> simp

theorem lacks_none_iff (d : Bytes) (n : Nat) (t : String) : lacks d n t = none ↔ n ≤ d.length := by
  unfold lacks
  split
  · simp; omega
  · simp; omega

theorem under_none (t : String) (o : Option String) : under t o = none ↔ o = none := by
  cases o <;> simp [under]

theorem lacksData_none (d : Bytes) (name : String) (need size : Nat) :
    lacksData d name need size = none ↔ need ≤ d.length := lacks_none_iff ..

theorem le_append {n : Nat} {d : Bytes} (e : Bytes) (h : n ≤ d.length) : n ≤ (d ++ e).length := by
  rw [List.length_append]; omega

theorem lacks_more {d : Bytes} {n : Nat} {t : String} (t' : String) (e : Bytes)
    (h : lacks d n t = none) : lacks (d ++ e) n t' = none :=
  (lacks_none_iff ..).2 (le_append e ((lacks_none_iff ..).1 h))

/-- A choice by a field has no text for longer data if none of its texts is for longer data. -/
theorem pick_more {n : Nat} {c : BitVec n} {t t' : List (BitVec n × Option String)}
    {o o' : Option String} (h : pick c t o = none) (ho : o = none → o' = none)
    (ht : List.Forall₂ (fun x y => x.1 = y.1 ∧ (x.2 = none → y.2 = none)) t t') :
    pick c t' o' = none := by
  induction ht with
  | nil => exact ho h
  | cons hx _ ih =>
    rename_i x y l l' hl
    obtain ⟨a, b⟩ := x
    obtain ⟨a', b'⟩ := y
    obtain ⟨rfl, hb⟩ := hx
    simp only [pick] at h ⊢
    split
    · rename_i hc; rw [if_pos hc] at h; exact hb h
    · rename_i hc; rw [if_neg hc] at h; exact ih h

theorem msiText_more (d e : Bytes) (h : msiText d = none) : msiText (d ++ e) = none := by
  unfold msiText at h ⊢
  rw [or_none] at h ⊢
  obtain ⟨h2, h⟩ := h
  refine ⟨lacks_more _ e h2, ?_⟩
  rw [lacks_none_iff] at h2
  rw [← (agree_append d e).rd16 0 (by omega)]
  revert h
  cases flag (rd16 d 0) 7 <;> cases flag (rd16 d 0) 8 <;> exact lacks_more _ e

theorem pciXText_more (d e : Bytes) (h : pciXText d = none) : pciXText (d ++ e) = none := by
  unfold pciXText at h ⊢
  rw [or_none] at h ⊢
  obtain ⟨h2, h⟩ := h
  refine ⟨lacks_more _ e h2, ?_⟩
  rw [lacks_none_iff] at h2
  rw [← (agree_append d e).rd16 0 (by omega)]
  exact pick_more h id (.cons ⟨rfl, lacks_more _ e⟩ (.cons ⟨rfl, lacks_more _ e⟩ .nil))

theorem pciXBridgeText_more (d e : Bytes) (h : pciXBridgeText d = none) :
    pciXBridgeText (d ++ e) = none := by
  unfold pciXBridgeText at h ⊢
  rw [or_none] at h ⊢
  obtain ⟨h2, h⟩ := h
  refine ⟨lacks_more _ e h2, ?_⟩
  rw [lacks_none_iff] at h2
  rw [← (agree_append d e).rd16 0 (by omega)]
  exact pick_more h id (.cons ⟨rfl, lacks_more _ e⟩ (.cons ⟨rfl, lacks_more _ e⟩ .nil))

theorem pciExpressText_more (d e : Bytes) (h : pciExpressText d = none) :
    pciExpressText (d ++ e) = none := by
  unfold pciExpressText at h ⊢
  rw [or_none] at h ⊢
  obtain ⟨h2, h⟩ := h
  refine ⟨lacks_more _ e h2, ?_⟩
  rw [lacks_none_iff] at h2
  rw [← (agree_append d e).rd16 0 (by omega)]
  exact pick_more h id (.cons ⟨rfl, lacks_more _ e⟩ (.cons ⟨rfl, lacks_more _ e⟩ .nil))

theorem hypertransportText_more (d e : Bytes) (h : hypertransportText d = none) :
    hypertransportText (d ++ e) = none := by
  unfold hypertransportText at h ⊢
  rw [or_none] at h ⊢
  obtain ⟨h2, h⟩ := h
  refine ⟨lacks_more _ e h2, ?_⟩
  rw [lacks_none_iff] at h2
  rw [← (agree_append d e).rd16 0 (by omega)]
  exact pick_more h (fun h => pick_more h id (.cons ⟨rfl, lacks_more _ e⟩ .nil))
    (.cons ⟨rfl, lacks_more _ e⟩ (.cons ⟨rfl, lacks_more _ e⟩ .nil))

theorem vendorSpecificText_more (v dev : U16) (d e : Bytes) (h : vendorSpecificText v dev d = none) :
    vendorSpecificText v dev (d ++ e) = none := by
  unfold vendorSpecificText at h ⊢
  dsimp only at h ⊢
  by_cases hd : d = []
  · rw [if_pos hd] at h; cases h
  have hl : 1 ≤ d.length := List.length_pos_iff.2 hd
  rw [if_neg hd] at h
  rw [if_neg (by simp [hd]), ← (agree_append d e).byteAt 0 hl]
  by_cases h1 : (byteAt d 0).toNat < 2
  · rw [if_pos h1] at h; cases h
  rw [if_neg h1] at h ⊢
  by_cases h2 : (byteAt d 0).toNat = 2 ∨ d.length < (byteAt d 0).toNat - 2
  · rw [if_pos h2] at h; cases h
  rw [if_neg h2] at h
  rw [if_neg (by rw [List.length_append]; omega)]
  exact h

theorem capText_more (bridge : Bool) (v dev : U16) (id : U8) (d e : Bytes)
    (h : capText bridge v dev id d = none) : capText bridge v dev id (d ++ e) = none := by
  unfold capText at h ⊢
  have hu : ∀ (t : String) (a b : Option String), (a = none → b = none) →
      (under t a = none → under t b = none) :=
    fun t a b hab ha => (under_none ..).2 (hab ((under_none ..).1 ha))
  refine pick_more h (fun x => x) ?_
  refine .cons ⟨rfl, lacks_more _ e⟩ (.cons ⟨rfl, lacks_more _ e⟩ (.cons ⟨rfl, lacks_more _ e⟩
    (.cons ⟨rfl, lacks_more _ e⟩ (.cons ⟨rfl, hu _ _ _ (msiText_more d e)⟩ (.cons ⟨rfl, ?_⟩
    (.cons ⟨rfl, hu _ _ _ (hypertransportText_more d e)⟩
    (.cons ⟨rfl, hu _ _ _ (vendorSpecificText_more v dev d e)⟩ (.cons ⟨rfl, lacks_more _ e⟩
    (.cons ⟨rfl, lacks_more _ e⟩ (.cons ⟨rfl, hu _ _ _ (pciExpressText_more d e)⟩
    (.cons ⟨rfl, lacks_more _ e⟩ (.cons ⟨rfl, lacks_more _ e⟩ (.cons ⟨rfl, lacks_more _ e⟩
    (.cons ⟨rfl, hu _ _ _ (lacks_more _ e)⟩ (.cons ⟨rfl, lacks_more _ e⟩ .nil)))))))))))))))
  cases bridge
  · exact hu _ _ _ (pciXText_more d e)
  · exact hu _ _ _ (pciXBridgeText_more d e)

/-- A result that does not panic is a value exactly when nothing is said. -/
theorem said_none_iff {ε α : Type} (f : ε → String) (r : Res ε α) (hr : r ≠ .panic) :
    said f r = none ↔ ∃ a, r = .ok a := by
  cases r with
  | ok a => simp [said]
  | err e => simp [said]
  | panic => exact absurd rfl hr

/-- C92: when more bytes are readable after a capability, what was decoded is still decoded, to the
same kind of capability. -/
theorem cap_more_bytes (h : Header.Header) (p id : U8) (d e : Bytes) (k : CapabilityKind)
    (hk : decodeKind h p id d = .ok k) :
    ∃ k', decodeKind h p id (d ++ e) = .ok k' ∧ k'.code = k.code := by
  have ht : said CapabilityError.display (decodeKind h p id d) = none := by rw [hk]; rfl
  rw [decodeKind_eq, kind_text, under_none] at ht
  have ht' := capText_more _ _ _ _ d e ht
  rw [← under_none ("[" ++ hex 2 p.toNat ++ "] "), ← kind_text, ← decodeKind_eq] at ht'
  obtain ⟨k', hk'⟩ := (said_none_iff _ _ (by rw [decodeKind_eq]; exact kindSpec_ne_panic _ _ _ _)).1 ht'
  exact ⟨k', hk', by rw [(cap_kind_of_id _ _ _ _ _ hk).1, (cap_kind_of_id _ _ _ _ _ hk').1]⟩

/-- C92: the walk over a region of which more bytes are readable visits the same pointers, and every
capability that was decoded is still decoded there, to the same kind of capability. -/
theorem cap_walk_more_bytes (h : Header.Header) (d e : Bytes) (ps : List U8) (q : U8)
    (hc : CapChain d h.capabilities_pointer ps q) :
    CapChain (d ++ e) h.capabilities_pointer ps q ∧
    ∀ k c, k < ps.length → (Capabilities.new d h).item k = some (.ok c) →
      ∃ c', (Capabilities.new (d ++ e) h).item k = some (.ok c') ∧ c'.pointer = c.pointer ∧
        c'.kind.code = c.kind.code := by
  have hfit : ∀ p, capFits d p → capFits (d ++ e) p ∧ capId (d ++ e) p = capId d p ∧
      capNext (d ++ e) p = capNext d p ∧ capData (d ++ e) p = capData d p ++ e := by
    intro p hf
    have hp := hf.1
    have hl : p.toNat - 0x40 + 2 ≤ d.length := hf.2
    refine ⟨⟨hf.1, le_append e hf.2⟩, ?_, ?_, ?_⟩
    · exact ((agree_append d e).byteAt _ (by omega)).symm
    · exact ((agree_append d e).byteAt _ (by omega)).symm
    · exact List.drop_append_of_le_length (by omega)
  have hchain : CapChain (d ++ e) h.capabilities_pointer ps q := by
    generalize h.capabilities_pointer = p at hc
    induction hc with
    | stop p => exact .stop p
    | step hf _ ih => exact .step (hfit _ hf).1 ((hfit _ hf).2.2.1 ▸ ih)
  refine ⟨hchain, fun k c hk hi => ?_⟩
  have hp := List.getElem?_eq_getElem hk
  generalize ps[k] = p at hp
  have hf : capFits d p := (chain_take hc k p hp).2.1
  rw [cap_walk d h ps q hc k p hp] at hi
  rw [cap_walk (d ++ e) h ps q hchain k p hp]
  obtain ⟨-, hid, -, hdata⟩ := hfit p hf
  simp only [Option.some.injEq] at hi ⊢
  unfold capItem at hi ⊢
  rw [hid, hdata]
  cases hks : kindSpec h p (capId d p) (capData d p) with
  | ok kd =>
    rw [hks] at hi
    cases hi
    rw [← decodeKind_eq] at hks
    obtain ⟨k', hk', hcode⟩ := cap_more_bytes h p (capId d p) (capData d p) e kd hks
    rw [decodeKind_eq] at hk'
    exact ⟨⟨p, k'⟩, by rw [hk'], rfl, hcode⟩
  | err x => rw [hks] at hi; cases hi
  | panic => rw [hks] at hi; cases hi

example : CapChain [0x01, 0, 1, 2, 3, 4, 5, 6] 0x40 [0x40] 0 ∧
    ((Capabilities.mk [0x01, 0, 1, 2, 3, 4, 5, 6] (sampleHeader 0x40) 0x40).next.1.map
      fun r => r.isOk) = some true :=
  ⟨.step (by decide) (.stop _), by decide +kernel⟩

end Pcics
