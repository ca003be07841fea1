import Verif.Lemmas.BarCollect
import Verif.Props.Bar
/- Properties of collecting base addresses to registers (C15, C75, C98). -/

namespace Pcics.Header
open Spec

/-- C15: when exactly the registers are restored: none of them has a reserved encoding and there is
no 64-bit BAR in the last slot.  (A slot of reserved type that is otherwise zero cannot exist, so the
condition is sharp.) -/
theorem bar_collect_roundtrip_iff (data : List U32) :
    fromBaseAddresses data.length (BaseAddresses.collect (data.length + 1) (.new data)) = some data ↔
      ∀ r, r < data.length → representable data r := by
  refine ⟨fun h r hr => ?_, bar_collect_roundtrip_partial data⟩
  rw [bar_collect_general, Option.some.injEq] at h
  have hs : stored data r = data.getD r 0 := by
    have := congrArg (·.getD r 0) h
    simpa [List.getD_eq_getElem?_getD, hr] using this
  by_cases hu : isUpper data r = true
  · exact Or.inl hu
  · refine Or.inr ?_
    simp only [stored, if_neg hu] at hs
    generalize data.getD r 0 = w at *
    refine ⟨fun h0 => ?_, fun h0 h3 => ?_, fun h64 => ?_⟩
    · rw [if_pos h0] at hs
      have := congrArg (·.getLsbD 1) hs
      simpa [-BitVec.getLsbD_eq_getElem, flag] using this
    · rw [if_neg h0, if_pos h3] at hs
      rw [← hs] at h3
      exact absurd h3 (by decide)
    · by_cases h1 : r + 1 < data.length
      · exact h1
      · exfalso
        have h0 : ¬ flag w 0 = true := by
          intro h; simp [is64, h] at h64
        have h3 : ¬ (fld w 1 2 : U8) = 3 := by
          intro h; simp [is64, h] at h64
        rw [if_neg h0, if_neg h3, if_pos ⟨h64, by omega⟩] at hs
        rw [← hs] at h64
        exact absurd h64 (by decide)

/-- C15: collecting any list of base addresses, wherever it comes from, panics exactly when there is
no register at all to store to, or for a 64-bit base address whose upper half would be past the last
register. -/
theorem bar_collect_panics_iff (n : Nat) (items : List BaseAddress) :
    fromBaseAddresses n items = none ↔
      (n = 0 ∧ items ≠ []) ∨
        ∃ b ∈ items, (∃ p a, b.base_address_type = .MemorySpace64 p a) ∧ n ≤ b.region + 1 := by
  have key : ∀ (items : List BaseAddress) (ds : List U32), ds.length = n →
      (items.foldlM BaseAddress.store ds = none ↔ (n = 0 ∧ items ≠ []) ∨
        ∃ b ∈ items, (∃ p a, b.base_address_type = .MemorySpace64 p a) ∧ n ≤ b.region + 1) := by
    intro items
    induction items with
    | nil => intro ds _; simp
    | cons b l ih =>
      intro ds hn
      rw [List.foldlM_cons]
      by_cases h0 : n = 0
      · have : BaseAddress.store ds b = none := by simp [BaseAddress.store, hn, h0]
        simp [this, h0]
      · by_cases hb : (∃ p a, b.base_address_type = .MemorySpace64 p a) ∧ n ≤ b.region + 1
        · have : BaseAddress.store ds b = none := by
            obtain ⟨⟨p, a, ht⟩, hr⟩ := hb
            simp only [BaseAddress.store, hn, if_neg h0, ht, List.length_set]
            rw [if_neg (by omega)]
          rw [this]
          exact ⟨fun _ => Or.inr ⟨b, by simp, hb⟩, fun _ => rfl⟩
        · obtain ⟨ds', hs, hl⟩ : ∃ ds', BaseAddress.store ds b = some ds' ∧ ds'.length = n := by
            simp only [BaseAddress.store, hn, if_neg h0, List.length_set]
            cases ht : b.base_address_type with
            | MemorySpace64 p a =>
              have : b.region + 1 < n := by
                by_cases h : n ≤ b.region + 1
                · exact absurd ⟨⟨p, a, ht⟩, h⟩ hb
                · omega
              simp only
              rw [if_pos (by omega)]
              exact ⟨_, rfl, by simp [hn]⟩
            | _ => exact ⟨_, rfl, by simp [hn]⟩
          rw [hs]
          simp only [Option.bind_eq_bind, Option.bind_some]
          rw [ih ds' hl]
          simp only [h0, false_and, false_or, List.mem_cons, exists_eq_or_imp]
          exact ⟨Or.inr, fun h => h.resolve_left hb⟩
  exact key items _ (by simp)

/-- Three registers: a 64-bit BAR in slot 1 fits, in slot 2 it does not. -/
example : fromBaseAddresses 3 [⟨1, .MemorySpace64 true 0x1fe000000⟩] ≠ none ∧
    fromBaseAddresses 3 [⟨2, .MemorySpace64 true 0x1fe000000⟩] = none := by decide +kernel

theorem low_shl2 (x : U32) : (fld (x <<< 2) 0 2 : U8) = 0 := by bv_bits []
theorem low_shl4 (x : U32) : (fld (x <<< 4) 0 4 : U8) = 0 := by bv_bits []
theorem low_cat4 (u x : U32) : (fld (cat u (x <<< 4) : U64) 0 4 : U8) = 0 := by bv_bits []

theorem barKind_proper (w : U32) (x : Option U32) (h0 : w ≠ 0)
    (h2 : ¬ flag w 0 = true → (fld w 1 2 : U8) ≠ 3) (h3 : is64 w = true → x ≠ none) (r : Nat) :
    (barKind w x).proper ∧
      BaseAddress.slots ⟨r, barKind w x⟩ = (if is64 w then 2 else 1) := by
  have h4 := fld2_lt w
  cases hio : flag w 0
  · have hc : (fld w 1 2 : U8) = 0 ∨ (fld w 1 2 : U8) = 1 ∨ (fld w 1 2 : U8) = 2 ∨
        (fld w 1 2 : U8) = 3 := by
      simp only [BitVec.toNat_eq]; simp; omega
    rcases hc with hc | hc | hc | hc
    · have hk : barKind w x = .MemorySpace32 (flag w 3) ((fld w 4 28 : U32) <<< 4) := by
        simp [barKind, hio, hc, pick]
      have h64 : is64 w = false := by simp [is64, hio, hc]
      rw [hk, h64]
      refine ⟨⟨low_shl4 _, ?_⟩, rfl⟩
      by_cases hp : flag w 3 = true
      · exact Or.inl hp
      · refine Or.inr fun hz => h0 ?_
        obtain ⟨a, b⟩ := ty0 w hc
        have := re_m32 w hio hc
        rw [hz] at this
        rw [← this]
        simp only [Bool.not_eq_true] at hp
        rw [hp]; decide
    · have hk : barKind w x = .MemorySpaceBelow1M (flag w 3) ((fld w 4 28 : U32) <<< 4) := by
        simp [barKind, hio, hc, pick]
      have h64 : is64 w = false := by simp [is64, hio, hc]
      rw [hk, h64]
      exact ⟨low_shl4 _, rfl⟩
    · have h64 : is64 w = true := by simp [is64, hio, hc]
      obtain ⟨u, rfl⟩ : ∃ u, x = some u := by
        cases x with
        | none => exact absurd rfl (h3 h64)
        | some u => exact ⟨u, rfl⟩
      have hk : barKind w (some u) =
          .MemorySpace64 (flag w 3) (cat u ((fld w 4 28 : U32) <<< 4)) := by
        simp [barKind, hio, hc, pick]
      rw [hk, h64]
      exact ⟨low_cat4 _ _, rfl⟩
    · exact absurd hc (h2 (by simp [hio]))
  · have hk : barKind w x = .IoSpace ((fld w 2 30 : U32) <<< 2) := by simp [barKind, hio]
    have h64 : is64 w = false := by simp [is64, hio]
    rw [hk, h64]
    exact ⟨low_shl2 _, rfl⟩

/-- C75: a list of base addresses collected to `n` registers is read back from them exactly when it
fits: every base address is aligned and of a defined kind, and they occupy disjoint slots below `n`,
in increasing order. -/
theorem bar_items_roundtrip_iff (n : Nat) (items : List BaseAddress) :
    (∃ data, fromBaseAddresses n items = some data ∧
      BaseAddresses.collect (n + 1) (.new data) = items) ↔ fits n items := by
  constructor
  · rintro ⟨data, hc, hi⟩
    have hlen : data.length = n := by
      have key : ∀ (items : List BaseAddress) (ds ds' : List U32),
          items.foldlM BaseAddress.store ds = some ds' → ds'.length = ds.length := by
        intro items
        induction items with
        | nil => intro ds ds' h; simp at h; rw [h]
        | cons b l ih =>
          intro ds ds' h
          rw [List.foldlM_cons, Option.bind_eq_bind, Option.bind_eq_some_iff] at h
          obtain ⟨d1, h1, h2⟩ := h
          rw [ih _ _ h2]
          simp only [BaseAddress.store] at h1
          repeat' split at h1
          all_goals first
            | cases h1; done
            | (cases h1; simp)
      have := key items _ _ hc
      simpa using this
    subst hlen
    have hrep : ∀ r, r < data.length → representable data r := by
      rw [← bar_collect_roundtrip_iff, hi]; exact hc
    rw [bar_iteration data _ (by omega)] at hi
    subst hi
    have item : ∀ r b, r < data.length → barAt data r = some b →
        b.region = r ∧ isUpper data r = false ∧ b.base_address_type.proper ∧
          b.slots = (if is64 (data.getD r 0) then 2 else 1) ∧
          (is64 (data.getD r 0) = true → r + 1 < data.length) := by
      intro r b hr hb
      simp only [barAt] at hb
      split at hb
      · cases hb
      · rename_i hn
        cases hb
        have hu : isUpper data r = false := by
          cases h : isUpper data r
          · rfl
          · exact absurd (Or.inl h) hn
        obtain ⟨h1, h2, h3⟩ := (hrep r hr).resolve_left (by simp [hu])
        obtain ⟨hp, hs⟩ := barKind_proper (data.getD r 0) data[r + 1]? (fun h => hn (Or.inr h)) h2
          (fun h => by simpa using h3 h) r
        exact ⟨rfl, hu, hp, hs, h3⟩
    refine ⟨fun b hb => ?_, ?_⟩
    · obtain ⟨r, hr, hb⟩ := List.mem_filterMap.1 hb
      have hr := List.mem_range.1 hr
      obtain ⟨h1, h2, h3, h4, h5⟩ := item r b hr hb
      refine ⟨h3, ?_⟩
      rw [h1, h4]
      split
      · exact h5 (by assumption)
      · exact hr
    · rw [barsOf, List.pairwise_filterMap]
      have hlt : (List.range data.length).Pairwise fun a b => a < b ∧ b < data.length := by
        rw [List.pairwise_iff_getElem]
        intro i j hi hj hij
        simp at hi hj ⊢
        exact ⟨hij, hj⟩
      refine hlt.imp ?_
      rintro a b ⟨hab, hb⟩ x hx y hy
      obtain ⟨x1, x2, x3, x4, x5⟩ := item a x (by omega) hx
      obtain ⟨y1, y2, y3, y4, y5⟩ := item b y hb hy
      rw [x1, y1, x4]
      split
      · rename_i h64
        by_cases hba : b = a + 1
        · subst hba
          simp only [isUpper, x2, h64] at y2
          exact absurd y2 (by simp)
        · omega
      · omega
  · rintro ⟨h1, h2⟩
    obtain ⟨ws, hl, hb, hr⟩ := registers_exist n 0 items
      (fun b hb => ⟨(h1 b hb).1, Nat.zero_le _, by have := (h1 b hb).2; omega⟩) h2
    have hi : barsOf ws = items := by
      rw [← barsFrom_zero, barsFrom_list ws _ 0 rfl rfl, List.drop_zero, hb]
    subst hl
    have hc := bar_collect_roundtrip_partial ws (fun r hr' =>
      representable_of_list ws _ 0 rfl rfl (by simpa using hr) r (Nat.zero_le _) hr')
    rw [bar_iteration ws _ (by omega), hi] at hc
    exact ⟨ws, hc, by rw [bar_iteration ws _ (by omega), hi]⟩

/-- A 64-bit BAR in slots 1 and 2, an I/O BAR in slot 4. -/
example : fits 6 [⟨1, .MemorySpace64 true 0x1fe000000⟩, ⟨4, .IoSpace 0xe000⟩] := by
  refine ⟨?_, by decide⟩
  intro b hb
  rcases List.mem_cons.1 hb with rfl | hb
  · exact ⟨by unfold BaseAddressType.proper; decide, by decide⟩
  · rcases List.mem_cons.1 hb with rfl | hb
    · exact ⟨by unfold BaseAddressType.proper; decide, by decide⟩
    · cases hb

theorem memory32_register (a : U32) (p : Bool) :
    a &&& ~~~0b1111#32 ||| (BitVec.ofNat 32 (b2n p) <<< 3) = memoryRegister (fld a 4 28) p 0 := by
  cases p <;> bv_bits [memoryRegister, b2n]

theorem memory1M_register (a : U32) (p : Bool) :
    a &&& ~~~0b1111#32 ||| 0b010#32 ||| (BitVec.ofNat 32 (b2n p) <<< 3) =
      memoryRegister (fld a 4 28) p 1 := by
  cases p <;> bv_bits [memoryRegister, b2n]

theorem memory64_register (a : U64) (p : Bool) :
    a.setWidth 32 &&& ~~~0b1111#32 ||| 0b100#32 ||| (BitVec.ofNat 32 (b2n p) <<< 3) =
      memoryRegister (fld a 4 28) p 2 := by
  cases p <;> bv_bits [memoryRegister, b2n]

theorem upper_register (a : U64) : (a >>> 32).setWidth 32 = (fld a 32 32 : U32) := by bv_bits []

theorem io_register (a : U32) :
    a &&& ~~~0b11#32 ||| 0b01#32 = ((fld a 2 30 : U32) <<< 2) ||| 1 := by
  bv_bits []

theorem store_writes (ds ds' : List U32) (b : BaseAddress) (h : BaseAddress.store ds b = some ds') :
    ds' = (b.writes ds.length).foldl (fun d w => d.set w.1 w.2) ds := by
  have hi : min b.region (ds.length - 1) =
      if b.region < ds.length then b.region else ds.length - 1 := by split <;> omega
  simp only [BaseAddress.store, hi] at h
  split at h
  · cases h
  · cases ht : b.base_address_type <;>
      simp only [ht, memory32_register, memory1M_register, memory64_register, upper_register,
        io_register, Option.some.injEq, Option.ite_none_right_eq_some] at h
    case MemorySpace64 => obtain ⟨_, rfl⟩ := h; simp [BaseAddress.writes, ht]
    all_goals subst h; simp [BaseAddress.writes, ht]

theorem foldl_set (j : Nat) (ws : List (Nat × U32)) : ∀ ds : List U32, j < ds.length →
    (ws.foldl (fun d w => d.set w.1 w.2) ds).length = ds.length ∧
    (ws.foldl (fun d w => d.set w.1 w.2) ds)[j]? =
      some ((lastWrite j ws).getD (ds.getD j 0)) := by
  induction ws with
  | nil => intro ds hj; simp [lastWrite, hj]
  | cons w l ih =>
    intro ds hj
    obtain ⟨h1, h2⟩ := ih (ds.set w.1 w.2) (by simpa using hj)
    refine ⟨by simpa using h1, ?_⟩
    rw [List.foldl_cons, h2, Option.some.injEq]
    by_cases hw : w.1 = j
    · subst hw
      cases hl : (l.filter fun x => decide (x.1 = w.1)).getLast? <;>
        simp [lastWrite, List.getLast?_cons, hl, hj]
    · simp [lastWrite, hw, List.getElem?_set]

/-- C98: after collecting any list of base addresses, wherever it comes from, every register holds
what the last base address stored to it left, or zero. -/
theorem bar_collect_registers (n : Nat) (items : List BaseAddress) (ds : List U32)
    (h : fromBaseAddresses n items = some ds) :
    ds.length = n ∧
      ∀ j, j < n → ds[j]? = some ((lastWrite j (items.flatMap (·.writes n))).getD 0) := by
  have len : ∀ (ws : List (Nat × U32)) (d : List U32),
      (ws.foldl (fun d w => d.set w.1 w.2) d).length = d.length := by
    intro ws
    induction ws with
    | nil => intro d; rfl
    | cons w l ih => intro d; rw [List.foldl_cons, ih, List.length_set]
  have key : ∀ (items : List BaseAddress) (d d' : List U32), d.length = n →
      items.foldlM BaseAddress.store d = some d' →
      d' = (items.flatMap (·.writes n)).foldl (fun d w => d.set w.1 w.2) d := by
    intro items
    induction items with
    | nil => intro d d' _ h; simpa using h.symm
    | cons b l ih =>
      intro d d' hd h
      rw [List.foldlM_cons, Option.bind_eq_bind, Option.bind_eq_some_iff] at h
      obtain ⟨d1, h1, h2⟩ := h
      have hs := store_writes _ _ _ h1
      rw [hd] at hs
      rw [List.flatMap_cons, List.foldl_append, ← hs]
      exact ih _ _ (by rw [hs, len, hd]) h2
  have hk := key items _ ds (by simp) h
  subst hk
  refine ⟨by rw [len]; simp, fun j hj => ?_⟩
  rw [(foldl_set j _ _ (by simpa using hj)).2]
  simp [List.getD_eq_getElem?_getD, hj]

/-- Slot 9 of three is the last one, and it overwrites what was there; the other slots keep theirs. -/
example : fromBaseAddresses 3 [⟨2, .IoSpace 0xe000⟩, ⟨0, .MemorySpace32 true 0xf0000000⟩,
      ⟨9, .MemorySpaceBelow1M false 0x8000⟩] = some [0xf0000008, 0, 0x8002] := by decide +kernel

end Pcics.Header
