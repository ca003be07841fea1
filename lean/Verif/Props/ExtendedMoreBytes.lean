import Verif.Props.MoreBytes
/- Theorems about extended configuration spaces of which more bytes are readable -/

namespace Pcics.ExtendedCapabilities
open Spec

theorem aerText_more (d e : Bytes) (h : aerText d = none) : aerText (d ++ e) = none := by
  unfold aerText at h ⊢
  rw [or_none] at h ⊢
  obtain ⟨h2, h⟩ := h
  refine ⟨lacks_more _ e h2, ?_⟩
  rw [lacks_none_iff] at h2
  rw [← (agree_append d e).rd32 20 (by omega)]
  split
  · rename_i hf; rw [if_pos hf] at h; exact lacks_more _ e h
  · rfl

theorem linkDeclarationText_more (d e : Bytes) (h : linkDeclarationText d = none) :
    linkDeclarationText (d ++ e) = none := by
  unfold linkDeclarationText at h ⊢
  simp only [or_none] at h ⊢
  obtain ⟨h2, h3, h4, h5⟩ := h
  refine ⟨lacks_more _ e h2, ?_, lacks_more _ e h4, lacks_more _ e h5⟩
  rw [lacks_none_iff] at h2
  rw [← (agree_append d e).rd32 0 (by omega)]
  exact h3

theorem mfvcText_more (s e : Bytes) (h : mfvcText s = none) : mfvcText (s ++ e) = none := by
  unfold mfvcText at h ⊢
  dsimp only at h ⊢
  rw [or_none] at h ⊢
  obtain ⟨h2, h⟩ := h
  refine ⟨lacks_more _ e h2, ?_⟩
  rw [lacks_none_iff] at h2
  rw [← (agree_append s e).rd32 8 (by omega), ← (agree_append s e).rd16 12 (by omega)]
  split
  · rfl
  · rename_i h0
    rw [if_neg h0] at h
    split
    · rename_i h1; rw [if_pos h1] at h; exact h
    · rename_i h1
      rw [if_neg h1, or_none] at h
      rw [or_none]
      exact ⟨lacks_more _ e h.1, lacks_more _ e h.2⟩

theorem dpcText_more (d e : Bytes) (h : dpcText d = none) : dpcText (d ++ e) = none := by
  unfold dpcText at h ⊢
  dsimp only at h ⊢
  rw [or_none] at h ⊢
  obtain ⟨h2, h⟩ := h
  refine ⟨lacks_more _ e h2, ?_⟩
  rw [lacks_none_iff] at h2
  rw [← (agree_append d e).rd16 0 (by omega)]
  split
  · rename_i hf
    rw [if_pos hf] at h
    simp only [or_none] at h ⊢
    refine ⟨lacks_more _ e h.1, ?_, lacks_more _ e h.2.2⟩
    split
    · rename_i hl
      have := h.2.1
      rw [if_pos hl] at this
      exact lacks_more _ e this
    · rfl
  · rfl

theorem resizableBarText_more (s e : Bytes) (h : resizableBarText s = none) :
    resizableBarText (s ++ e) = none := by
  unfold resizableBarText at h ⊢
  dsimp only at h ⊢
  simp only [or_none] at h ⊢
  obtain ⟨h2, h3, h4⟩ := h
  have := (lacks_none_iff ..).1 h2
  rw [← (agree_append s e).rd32 8 (by omega)]
  exact ⟨lacks_more _ e h2, h3, lacks_more _ e h4⟩

theorem dpaText_more (s e : Bytes) (h : dpaText s = none) : dpaText (s ++ e) = none := by
  unfold dpaText at h ⊢
  dsimp only at h ⊢
  simp only [or_none] at h ⊢
  obtain ⟨h2, h3⟩ := h
  have := (lacks_none_iff ..).1 h2
  rw [← (agree_append s e).rd32 4 (by omega)]
  exact ⟨lacks_more _ e h2, lacks_more _ e h3⟩

theorem pmuxText_more (s e : Bytes) (h : pmuxText s = none) : pmuxText (s ++ e) = none := by
  unfold pmuxText at h ⊢
  dsimp only at h ⊢
  simp only [or_none] at h ⊢
  obtain ⟨h2, h3⟩ := h
  have := (lacks_none_iff ..).1 h2
  rw [← (agree_append s e).rd32 4 (by omega)]
  exact ⟨lacks_more _ e h2, lacks_more _ e h3⟩

theorem dvsecText_more (s e : Bytes) (h : dvsecText s = none) : dvsecText (s ++ e) = none := by
  unfold dvsecText at h ⊢
  dsimp only at h ⊢
  rw [or_none] at h ⊢
  obtain ⟨h2, h⟩ := h
  refine ⟨lacks_more _ e h2, ?_⟩
  rw [lacks_none_iff] at h2
  rw [← (agree_append s e).rd32 4 (by omega), ← (agree_append s e).rd16 8 (by omega)]
  split at h
  · cases h
  · rename_i hl
    rw [if_neg (by rw [List.length_append]; omega)]
    exact h

theorem ecapText_more (id : U16) (s d e : Bytes) (h : ecapText id s d = none) :
    ecapText id (s ++ e) (d ++ e) = none := by
  unfold ecapText at h ⊢
  have hu : ∀ (t : String) (a b : Option String), (a = none → b = none) →
      (under t a = none → under t b = none) :=
    fun t a b hab ha => (under_none ..).2 (hab ((under_none ..).1 ha))
  refine pick_more h (fun x => x) ?_
  repeat' first
    | exact List.Forall₂.nil
    | refine List.Forall₂.cons ⟨rfl, ?_⟩ ?_
  all_goals first
    | exact lacks_more _ e
    | exact hu _ _ _ (aerText_more d e)
    | exact hu _ _ _ (linkDeclarationText_more d e)
    | exact hu _ _ _ (mfvcText_more s e)
    | exact hu _ _ _ (dpcText_more d e)
    | exact hu _ _ _ (resizableBarText_more s e)
    | exact hu _ _ _ (dpaText_more s e)
    | exact hu _ _ _ (pmuxText_more s e)
    | exact hu _ _ _ (dvsecText_more s e)

/-- C92: when more bytes are readable after an extended capability (and after the space its structure
is taken from), what was decoded is still decoded, to the variant of the same id. -/
theorem ecap_more_bytes (o id : U16) (ho : o.toNat < 0x1000) (d s e : Bytes)
    (k : ExtendedCapabilityKind) (hk : decodeKind o id d s = .ok k) :
    ∃ k', decodeKind o id (d ++ e) (s ++ e) = .ok k' ∧
      ∀ v, (ExtendedCapability.mk k' v o).id = (ExtendedCapability.mk k v o).id := by
  have ht : said ExtendedCapabilityError.display (decodeKind o id d s) = none := by rw [hk]; rfl
  rw [decodeKind_eq, kind_text _ _ _ _ ho, under_none] at ht
  have ht' := ecapText_more id s d e ht
  rw [← under_none ("[" ++ hex 3 o.toNat ++ "] "), ← kind_text _ _ _ _ ho, ← decodeKind_eq] at ht'
  obtain ⟨k', hk'⟩ := (said_none_iff _ _
    (by rw [decodeKind_eq]; exact kindSpec_ne_panic _ _ _ _)).1 ht'
  exact ⟨k', hk', fun v => by
    rw [(ecap_kind_of_id _ _ _ _ _ v hk).1, (ecap_kind_of_id _ _ _ _ _ v hk').1]⟩

/-- C92: the walk over an extended configuration space of which more bytes are readable visits the
same offsets, and every extended capability that was decoded is still decoded there, to the variant
of the same id, with the same version. -/
theorem ecap_walk_more_bytes (d e : Bytes) (os : List U16) (q : U16) (hc : Chain d 0x100 os q) :
    Chain (d ++ e) 0x100 os q ∧
    ∀ k c, k < os.length → (ExtendedCapabilities.new d).item k = some (.ok c) →
      ∃ c', (ExtendedCapabilities.new (d ++ e)).item k = some (.ok c') ∧ c'.offset = c.offset ∧
        c'.version = c.version ∧ c'.id = c.id := by
  have hfit : ∀ o, fits d o → fits (d ++ e) o ∧ header (d ++ e) o = header d o ∧
      (structureAt (d ++ e) o).drop 4 = (structureAt d o).drop 4 ++ e := by
    intro o hf
    have hp := hf.1
    have hl : o.toNat - 0x100 + 4 ≤ d.length := hf.2
    refine ⟨⟨hf.1, le_append e hf.2⟩, ((agree_append d e).rd32 _ (by omega)).symm, ?_⟩
    unfold structureAt
    rw [List.drop_append_of_le_length (by omega), List.drop_append_of_le_length]
    rw [List.length_drop]; omega
  have hchain : Chain (d ++ e) 0x100 os q := by
    generalize (0x100 : U16) = p at hc
    induction hc with
    | stop p => exact .stop p
    | step hf _ ih =>
      obtain ⟨h1, h2, -⟩ := hfit _ hf.1
      refine .step ⟨h1, h2 ▸ hf.2⟩ ?_
      have : capNext (d ++ e) _ = capNext d _ := congrArg (fld · 20 12) h2
      rw [this]
      exact ih
  refine ⟨hchain, fun k c hk hi => ?_⟩
  have hp := List.getElem?_eq_getElem hk
  have ho : (os[k]).toNat < 0x1000 := chain_lt hc (by decide) _ (List.getElem_mem hk)
  generalize os[k] = o at hp ho
  have hf : live d o := (chain_take hc k o hp).2.1
  rw [ecap_walk d os q hc k o hp] at hi
  rw [ecap_walk (d ++ e) os q hchain k o hp]
  obtain ⟨-, hh, hdata⟩ := hfit o hf.1
  have hid : capId (d ++ e) o = capId d o := congrArg (fld · 0 16) hh
  have hv : capVersion (d ++ e) o = capVersion d o := congrArg (fld · 16 4) hh
  simp only [Option.some.injEq] at hi ⊢
  unfold itemAt report at hi ⊢
  rw [hid, hv, hdata]
  cases hks : kindSpec o (capId d o) d ((structureAt d o).drop 4) with
  | ok kd =>
    rw [hks] at hi
    cases hi
    rw [← decodeKind_eq] at hks
    obtain ⟨k', hk', hcode⟩ := ecap_more_bytes o (capId d o) ho _ d e kd hks
    rw [decodeKind_eq] at hk'
    exact ⟨⟨k', capVersion d o, o⟩, by rw [hk'], rfl, rfl, hcode _⟩
  | err x => rw [hks] at hi; cases hi
  | panic => rw [hks] at hi; cases hi

/-- The hypotheses are met by a Device Serial Number (id 3) at the end of the space. -/
example : Chain [0x03, 0, 1, 0, 1, 2, 3, 4, 5, 6, 7, 8] 0x100 [0x100] 0 ∧
    (((ExtendedCapabilities.new [0x03, 0, 1, 0, 1, 2, 3, 4, 5, 6, 7, 8]).item 0).map
      fun r => r.isOk) = some true :=
  ⟨.step (by decide) (.stop _), by decide +kernel⟩

end Pcics.ExtendedCapabilities
