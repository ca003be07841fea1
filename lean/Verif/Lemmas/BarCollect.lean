import Verif.Lemmas.Bar
/- Lemmas for collecting base addresses to registers and reading them back. -/

namespace Pcics.Header
open Spec

/-- Items of the slots `ws`, the first of which has index `r` and is not an upper half. -/
def barsList : Nat → List U32 → List BaseAddress
  | _, [] => []
  | r, [w] => if w = 0 then [] else [⟨r, barKind w none⟩]
  | r, w :: u :: us =>
    if w = 0 then barsList (r + 1) (u :: us)
    else if is64 w then ⟨r, barKind w (some u)⟩ :: barsList (r + 2) us
    else ⟨r, barKind w (some u)⟩ :: barsList (r + 1) (u :: us)

theorem barKind_not64 (w : U32) (h : is64 w = false) (x y : Option U32) :
    barKind w x = barKind w y := by
  unfold barKind
  cases h0 : flag w 0
  · have : (fld w 1 2 : U8) ≠ 2 := by
      intro h2; simp [is64, h0, h2] at h
    simp only [pick, if_neg this]
  · simp

theorem is64_zero : is64 0 = false := by decide

theorem barsList_zero (r : Nat) (ws : List U32) : barsList r (0 :: ws) = barsList (r + 1) ws := by
  cases ws <;> simp [barsList]

theorem barsList_one (r : Nat) (w : U32) (ws : List U32) (h0 : w ≠ 0) (h : is64 w = false) :
    barsList r (w :: ws) = ⟨r, barKind w none⟩ :: barsList (r + 1) ws := by
  cases ws with
  | nil => simp only [barsList, if_neg h0]
  | cons u us =>
    simp only [barsList, if_neg h0, h, barKind_not64 w h (some u) none, Bool.false_eq_true, if_false]

theorem barsList_two (r : Nat) (w u : U32) (us : List U32) (h0 : w ≠ 0) (h : is64 w = true) :
    barsList r (w :: u :: us) = ⟨r, barKind w (some u)⟩ :: barsList (r + 2) us := by
  simp only [barsList, if_neg h0, h, if_true]

theorem drop_getD (data : List U32) (r : Nat) (h : r < data.length) :
    data.drop r = data.getD r 0 :: data.drop (r + 1) := by
  rw [List.drop_eq_getElem_cons h]; simp [List.getD_eq_getElem?_getD, h]

theorem barsFrom_list (data : List U32) : ∀ (n r : Nat), data.length - r = n →
    isUpper data r = false → barsFrom data r = barsList r (data.drop r) := by
  intro n
  induction n using Nat.strongRecOn with
  | _ n ih =>
    intro r hn hu
    by_cases hr : r < data.length
    · rw [barsFrom_step _ _ hr, drop_getD _ _ hr]
      by_cases h0 : data.getD r 0 = 0
      · have hu' : isUpper data (r + 1) = false := by
          simp only [isUpper, hu, h0]; rfl
        rw [show barAt data r = none by simp only [barAt, h0, or_true, if_true], h0, barsList_zero,
          ih (n - 1) (by omega) (r + 1) (by omega) hu']
        rfl
      · have hb : barAt data r = some ⟨r, barKind (data.getD r 0) data[r + 1]?⟩ := by
          simp only [barAt, hu, h0]; simp
        rw [hb]
        cases h64 : is64 (data.getD r 0)
        · have hu' : isUpper data (r + 1) = false := by
            simp only [isUpper, hu, h64]; rfl
          rw [barsList_one _ _ _ h0 h64, ih (n - 1) (by omega) (r + 1) (by omega) hu',
            barKind_not64 _ h64 _ none]
          rfl
        · by_cases hr1 : r + 1 < data.length
          · have hup : isUpper data (r + 1) = true := by
              simp only [isUpper, hu, h64]; rfl
            have hu' : isUpper data (r + 2) = false := by
              rw [isUpper, hup]; rfl
            rw [drop_getD _ _ hr1, barsList_two _ _ _ _ h0 h64, barsFrom_step _ _ hr1,
              show barAt data (r + 1) = none by simp only [barAt, hup, true_or, if_true],
              ih (n - 2) (by omega) (r + 2) (by omega) hu']
            simp [List.getD_eq_getElem?_getD, hr1]
          · have hd : data.drop (r + 1) = [] := by simp; omega
            have hn' : data[r + 1]? = none := by simp; omega
            rw [hd, barsFrom_end _ _ (by omega), hn']
            simp only [barsList, if_neg h0]
            rfl
    · rw [barsFrom_end _ _ (by omega), List.drop_eq_nil_of_le (by omega)]
      rfl

/-- A register without reserved encoding. -/
def okWord (w : U32) : Prop :=
  (flag w 0 → flag w 1 = false) ∧ (¬ flag w 0 → (fld w 1 2 : U8) ≠ 3)

/-- No reserved encoding, no 64-bit BAR in the last slot. -/
def repList : List U32 → Prop
  | [] => True
  | [w] => okWord w ∧ is64 w = false
  | w :: u :: us => okWord w ∧ if is64 w then repList us else repList (u :: us)

theorem repList_one (w : U32) (ws : List U32) (h : is64 w = false) :
    repList (w :: ws) ↔ okWord w ∧ repList ws := by
  cases ws <;> simp [repList, h]

theorem repList_two (w u : U32) (ws : List U32) (h : is64 w = true) :
    repList (w :: u :: ws) ↔ okWord w ∧ repList ws := by
  simp [repList, h]

theorem representable_of_list (data : List U32) : ∀ (n r : Nat), data.length - r = n →
    isUpper data r = false → repList (data.drop r) →
      ∀ k, r ≤ k → k < data.length → representable data k := by
  intro n
  induction n using Nat.strongRecOn with
  | _ n ih =>
    intro r hn hu hl k hk hkl
    have hr : r < data.length := by omega
    rw [drop_getD _ _ hr] at hl
    cases h64 : is64 (data.getD r 0)
    · rw [repList_one _ _ h64] at hl
      have hu' : isUpper data (r + 1) = false := by
        simp only [isUpper, hu, h64]; rfl
      by_cases hkr : k = r
      · subst hkr
        exact Or.inr ⟨hl.1.1, hl.1.2, fun h => by rw [h64] at h; cases h⟩
      · exact ih (n - 1) (by omega) (r + 1) (by omega) hu' hl.2 k (by omega) hkl
    · by_cases hr1 : r + 1 < data.length
      · rw [drop_getD _ _ hr1, repList_two _ _ _ h64] at hl
        have hup : isUpper data (r + 1) = true := by
          simp only [isUpper, hu, h64]; rfl
        have hu' : isUpper data (r + 2) = false := by
          rw [isUpper, hup]; rfl
        by_cases hkr : k = r
        · subst hkr
          exact Or.inr ⟨hl.1.1, hl.1.2, fun _ => hr1⟩
        · by_cases hkr1 : k = r + 1
          · subst hkr1; exact Or.inl hup
          · exact ih (n - 2) (by omega) (r + 2) (by omega) hu' hl.2 k (by omega) hkl
      · have hd : data.drop (r + 1) = [] := by simp; omega
        rw [hd] at hl
        simp only [repList] at hl
        rw [h64] at hl
        exact absurd hl.2 (by simp)

theorem low2 (a : U32) (h : (fld a 0 2 : U8) = 0) : a.getLsbD 0 = false ∧ a.getLsbD 1 = false := by
  have h0 := congrArg (fun x => x.getLsbD 0) h
  have h1 := congrArg (fun x => x.getLsbD 1) h
  simpa [-BitVec.getLsbD_eq_getElem, getLsbD_fld] using And.intro h0 h1

theorem low4 {n : Nat} (a : BitVec n) (h : (fld a 0 4 : U8) = 0) : a.getLsbD 0 = false ∧
    a.getLsbD 1 = false ∧ a.getLsbD 2 = false ∧ a.getLsbD 3 = false := by
  have h0 := congrArg (fun x => x.getLsbD 0) h
  have h1 := congrArg (fun x => x.getLsbD 1) h
  have h2 := congrArg (fun x => x.getLsbD 2) h
  have h3 := congrArg (fun x => x.getLsbD 3) h
  simpa [-BitVec.getLsbD_eq_getElem, getLsbD_fld] using And.intro h0 (And.intro h1 (And.intro h2 h3))

theorem ne_zero_of_bit {n : Nat} {w : BitVec n} (i : Nat) (h : w.getLsbD i = true) : w ≠ 0 := by
  rintro rfl; simp at h

/-- Every proper one-slot kind is the meaning of a register. -/
theorem word_of_proper (t : BaseAddressType) (h : t.proper)
    (ht : ∀ p a, t ≠ .MemorySpace64 p a) :
    ∃ w : U32, w ≠ 0 ∧ is64 w = false ∧ okWord w ∧ barKind w none = t := by
  cases t with
  | IoSpace a =>
    obtain ⟨h0, h1⟩ := low2 a h
    have f0 : flag (a ||| 1#32) 0 = true := by simp [flag]
    have f1 : flag (a ||| 1#32) 1 = false := by
      simp [-BitVec.getLsbD_eq_getElem, flag, h1]
    refine ⟨a ||| 1#32, ne_zero_of_bit 0 f0, by simp [is64, f0], ⟨fun _ => f1, by simp [f0]⟩, ?_⟩
    rw [barKind, if_pos f0]
    congr 1
    bv_bits [h0, h1]
  | MemorySpace32 p a =>
    obtain ⟨⟨h0, h1, h2, h3⟩, hn⟩ : _ ∧ _ := ⟨low4 a h.1, h.2⟩
    have f0 : flag (a ||| (bif p then 8#32 else 0#32)) 0 = false := by
      cases p <;> simp [-BitVec.getLsbD_eq_getElem, flag, h0]
    have f3 : flag (a ||| (bif p then 8#32 else 0#32)) 3 = p := by
      cases p <;> simp [-BitVec.getLsbD_eq_getElem, flag, h3]
    have ft : (fld (a ||| (bif p then 8#32 else 0#32)) 1 2 : U8) = 0 := by
      cases p <;> bv_bits [h1, h2]
    refine ⟨a ||| (bif p then 8#32 else 0#32), ?_, by simp [is64, ft], ⟨by simp [f0], by simp [ft]⟩, ?_⟩
    · cases p
      · simpa using hn
      · exact ne_zero_of_bit 3 f3
    · simp only [barKind, f0, f3, ft, pick]
      simp only [Bool.false_eq_true, if_false, if_true]
      congr 1
      cases p <;> bv_bits [h0, h1, h2, h3]
  | MemorySpaceBelow1M p a =>
    obtain ⟨h0, h1, h2, h3⟩ := low4 a h
    have f0 : flag (a ||| (bif p then 10#32 else 2#32)) 0 = false := by
      cases p <;> simp [-BitVec.getLsbD_eq_getElem, flag, h0]
    have f1 : flag (a ||| (bif p then 10#32 else 2#32)) 1 = true := by
      cases p <;> simp [-BitVec.getLsbD_eq_getElem, flag]
    have f3 : flag (a ||| (bif p then 10#32 else 2#32)) 3 = p := by
      cases p <;> simp [-BitVec.getLsbD_eq_getElem, flag, h3]
    have ft : (fld (a ||| (bif p then 10#32 else 2#32)) 1 2 : U8) = 1 := by
      cases p <;> bv_bits [h1, h2]
    refine ⟨a ||| (bif p then 10#32 else 2#32), ne_zero_of_bit 1 f1, by simp [is64, ft],
      ⟨by simp [f0], by simp [ft]⟩, ?_⟩
    simp only [barKind, f0, f3, ft, pick]
    simp only [Bool.false_eq_true, if_false, if_true]
    rw [if_neg (by decide)]
    congr 1
    cases p <;> bv_bits [h0, h1, h2, h3]
  | MemorySpace64 p a => exact absurd rfl (ht p a)
  | MemorySpaceReserved p a => exact h.elim
  | MemorySpace64Broken p => exact h.elim

/-- Every proper 64-bit kind is the meaning of a pair of registers. -/
theorem words_of_proper (p : Bool) (a : U64) (h : (fld a 0 4 : U8) = 0) :
    ∃ w u : U32, w ≠ 0 ∧ is64 w = true ∧ okWord w ∧
      barKind w (some u) = .MemorySpace64 p a := by
  obtain ⟨h0, h1, h2, h3⟩ := low4 a h
  have f0 : flag (a.setWidth 32 ||| (bif p then 12#32 else 4#32)) 0 = false := by
    cases p <;> simp [-BitVec.getLsbD_eq_getElem, flag, h0]
  have f2 : flag (a.setWidth 32 ||| (bif p then 12#32 else 4#32)) 2 = true := by
    cases p <;> simp [-BitVec.getLsbD_eq_getElem, flag]
  have f3 : flag (a.setWidth 32 ||| (bif p then 12#32 else 4#32)) 3 = p := by
    cases p <;> simp [-BitVec.getLsbD_eq_getElem, flag, h3]
  have ft : (fld (a.setWidth 32 ||| (bif p then 12#32 else 4#32)) 1 2 : U8) = 2 := by
    cases p <;> bv_bits [h1, h2]
  refine ⟨a.setWidth 32 ||| (bif p then 12#32 else 4#32), (a >>> 32).setWidth 32,
    ne_zero_of_bit 2 f2, by simp [is64, f0, ft], ⟨by simp [f0], by simp [ft]⟩, ?_⟩
  simp only [barKind, f0, f3, ft, pick]
  simp only [Bool.false_eq_true, if_false, if_true]
  rw [if_neg (by decide), if_neg (by decide)]
  congr 1
  cases p <;> bv_bits [h0, h1, h2, h3]

theorem slots_pos (b : BaseAddress) : 1 ≤ b.slots := by
  unfold BaseAddress.slots; split <;> omega

/-- Registers for a list of base addresses that fit in the `m` slots from `r` on. -/
theorem registers_exist : ∀ (m r : Nat) (items : List BaseAddress),
    (∀ b ∈ items, b.base_address_type.proper ∧ r ≤ b.region ∧ b.region + b.slots ≤ r + m) →
    items.Pairwise (fun a b => a.region + a.slots ≤ b.region) →
    ∃ ws : List U32, ws.length = m ∧ barsList r ws = items ∧ repList ws := by
  intro m
  induction m using Nat.strongRecOn with
  | _ m ih =>
    intro r items hin hp
    match m with
    | 0 =>
      cases items with
      | nil => exact ⟨[], rfl, rfl, trivial⟩
      | cons b l =>
        have := hin b (by simp)
        have := slots_pos b
        omega
    | m + 1 =>
      have skip : (∀ b ∈ items, r + 1 ≤ b.region) →
          ∃ ws : List U32, ws.length = m + 1 ∧ barsList r ws = items ∧ repList ws := by
        intro h
        obtain ⟨ws, h1, h2, h3⟩ := ih m (by omega) (r + 1) items
          (fun b hb => ⟨(hin b hb).1, h b hb, by have := (hin b hb).2.2; omega⟩) hp
        refine ⟨0 :: ws, by simp [h1], by rw [barsList_zero, h2], ?_⟩
        rw [repList_one _ _ is64_zero]
        exact ⟨⟨by decide, by decide⟩, h3⟩
      cases items with
      | nil => exact skip (by simp)
      | cons b l =>
        rw [List.pairwise_cons] at hp
        have hb := hin b (by simp)
        by_cases hr : b.region = r
        · obtain ⟨reg, t⟩ := b
          simp only at hr hb hp
          subst hr
          by_cases h64 : ∃ p a, t = .MemorySpace64 p a
          · obtain ⟨p, a, rfl⟩ := h64
            obtain ⟨w, u, w0, w64, wok, wk⟩ := words_of_proper p a hb.1
            have hs : BaseAddress.slots ⟨reg, .MemorySpace64 p a⟩ = 2 := rfl
            rw [hs] at hb hp
            obtain ⟨ws, h1, h2, h3⟩ := ih (m - 1) (by omega) (reg + 2) l
              (fun b' hb' => ⟨(hin b' (by simp [hb'])).1, hp.1 b' hb', by
                have := (hin b' (by simp [hb'])).2.2; omega⟩) hp.2
            refine ⟨w :: u :: ws, by simp [h1]; omega, ?_, ?_⟩
            · rw [barsList_two _ _ _ _ w0 w64, h2, wk]
            · rw [repList_two _ _ _ w64]; exact ⟨wok, h3⟩
          · have hne : ∀ p a, t ≠ .MemorySpace64 p a := fun p a h => h64 ⟨p, a, h⟩
            obtain ⟨w, w0, w64, wok, wk⟩ := word_of_proper t hb.1 hne
            obtain ⟨ws, h1, h2, h3⟩ := ih m (by omega) (reg + 1) l
              (fun b' hb' => ⟨(hin b' (by simp [hb'])).1, by
                  have := hp.1 b' hb'; have := slots_pos ⟨reg, t⟩; omega, by
                have := (hin b' (by simp [hb'])).2.2; omega⟩) hp.2
            refine ⟨w :: ws, by simp [h1], ?_, ?_⟩
            · rw [barsList_one _ _ _ w0 w64, h2, wk]
            · rw [repList_one _ _ w64]; exact ⟨wok, h3⟩
        · apply skip
          intro b' hb'
          rcases List.mem_cons.1 hb' with rfl | h
          · omega
          · have := hp.1 b' h
            omega

end Pcics.Header
