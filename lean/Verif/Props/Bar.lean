import Verif.Lemmas.Bar
/- Properties of base address registers (C12 - C15, C58). -/

namespace Pcics.Header
open Spec

/-- C12: iterating the registers `data` yields, in slot order, one entry for every slot that is
neither zero nor the upper half of a 64-bit BAR, with the meaning of that slot.  The number of
`next` calls allowed (`fuel`) is irrelevant once larger than the number of slots. -/
theorem bar_iteration (data : List U32) (fuel : Nat) (h : data.length < fuel) :
    BaseAddresses.collect fuel (.new data) = barsOf data := by
  rw [← barsFrom_zero]
  exact collect_spec data fuel 0 (by omega) rfl

/-- The registers of C12's example: a 64-bit prefetchable BAR in slots 0 and 1, an unused slot, an
I/O BAR, a BAR below 1M, a 32-bit BAR. -/
def sampleBars : List U32 :=
  [0xc000000c, 0x00000001, 0, 0x0000e001, 0x000d0002, 0xfe000000]

example : BaseAddresses.collect 7 (.new sampleBars) =
    [⟨0, .MemorySpace64 true 0x1c0000000⟩, ⟨3, .IoSpace 0xe000⟩,
     ⟨4, .MemorySpaceBelow1M false 0xd0000⟩, ⟨5, .MemorySpace32 false 0xfe000000⟩] := by
  rw [bar_iteration _ _ (by decide)]; decide

/-- C12: membership reading of `barsOf`: an entry is produced exactly for such slots. -/
theorem bar_iteration_mem (data : List U32) (b : BaseAddress) :
    b ∈ BaseAddresses.collect (data.length + 1) (.new data) ↔
      ∃ r w, data[r]? = some w ∧ w ≠ 0 ∧ isUpper data r = false ∧
        b = ⟨r, barKind w data[r + 1]?⟩ := by
  rw [bar_iteration data _ (by omega)]
  simp only [barsOf, List.mem_filterMap, List.mem_range, barAt]
  constructor
  · rintro ⟨r, hr, h⟩
    by_cases hc : isUpper data r = true ∨ data.getD r 0 = 0
    · rw [if_pos hc] at h; simp at h
    · simp only [hc, if_false, Option.some.injEq] at h
      refine ⟨r, data.getD r 0, ?_, fun h0 => hc (Or.inr h0), ?_, h.symm⟩
      · simp [List.getD_eq_getElem?_getD, hr]
      · cases hu : isUpper data r
        · rfl
        · exact absurd (Or.inl hu) hc
  · rintro ⟨r, w, hw, h0, hu, hb⟩
    have hr := (List.getElem?_eq_some_iff.1 hw).1
    have hg : data.getD r 0 = w := by simp [List.getD_eq_getElem?_getD, hw]
    refine ⟨r, hr, ?_⟩
    simp only [hu, hg, h0, hb]; simp

/-- C13: at most one entry per slot. -/
theorem bar_count (data : List U32) (fuel : Nat) (h : data.length < fuel) :
    (BaseAddresses.collect fuel (.new data)).length ≤ data.length := by
  rw [bar_iteration data fuel h, barsOf]
  refine Nat.le_trans (List.length_filterMap_le _ _) ?_
  simp

/-- C13: slot indices strictly increase and are below the number of slots. -/
theorem bar_regions_increasing (data : List U32) (fuel : Nat) (h : data.length < fuel) :
    (BaseAddresses.collect fuel (.new data)).Pairwise (fun a b => a.region < b.region) ∧
    ∀ b ∈ BaseAddresses.collect fuel (.new data), b.region < data.length := by
  rw [bar_iteration data fuel h, barsOf]
  constructor
  · rw [List.pairwise_filterMap]
    refine List.Pairwise.imp ?_ List.pairwise_lt_range
    intro a b hab x hx y hy
    simp only [barAt] at hx hy
    split at hx <;> split at hy <;> simp_all
    subst hx; subst hy; exact hab
  · intro b hb
    obtain ⟨r, hr, h⟩ := List.mem_filterMap.1 hb
    simp only [barAt] at h
    split at h
    · simp at h
    · simp only [Option.some.injEq] at h; subst h; exact List.mem_range.1 hr

/-- C13: from any state (also in the middle of an iteration) the iterator yields the meaning of the
first non-zero slot not yet consumed and consumes it, together with its second slot if it is a
64-bit BAR; if there is none, it is exhausted. -/
theorem bar_next (s : BaseAddresses) :
    (∃ r w, s.region ≤ r ∧ s.data[r]? = some w ∧ w ≠ 0 ∧
        (∀ k, s.region ≤ k → k < r → s.data[k]? = some 0) ∧
        s.next.1 = some ⟨r, barKind w s.data[r + 1]?⟩ ∧
        s.next.2.data = s.data ∧
        s.next.2.region = (if is64 w ∧ r + 1 < s.data.length then r + 2 else r + 1)) ∨
    ((∀ k w, s.region ≤ k → s.data[k]? = some w → w = 0) ∧
        s.next.1 = none ∧ s.next.2.data = s.data ∧ s.data.length ≤ s.next.2.region) := by
  obtain ⟨data, r⟩ := s
  show (∃ r' w, r ≤ r' ∧ data[r']? = some w ∧ w ≠ 0 ∧
        (∀ k, r ≤ k → k < r' → data[k]? = some 0) ∧ _ ∧ _ ∧ _) ∨ _
  induction hn : data.length - r generalizing r with
  | zero =>
    right
    rw [next_none _ (by simpa using Nat.le_of_sub_eq_zero hn)]
    refine ⟨?_, rfl, rfl, Nat.le_of_sub_eq_zero hn⟩
    intro k w hk hw
    have hr : r ≤ k := hk
    have : k < data.length := (List.getElem?_eq_some_iff.1 hw).1
    omega
  | succ n ih =>
    have hr : r < data.length := by omega
    by_cases h0 : data.getD r 0 = 0
    · have hz : data[r]? = some 0 := by
        rw [List.getD_eq_getElem?_getD, List.getElem?_eq_getElem hr] at h0
        rw [List.getElem?_eq_getElem hr]
        simpa using h0
      rw [next_zero ⟨data, r⟩ hr h0]
      rcases ih (r + 1) (by omega) with ⟨r', w, h1, h2, h3, h4, h5⟩ | ⟨h1, h2⟩
      · left
        refine ⟨r', w, by omega, h2, h3, ?_, h5⟩
        intro k hk hk'
        by_cases hkr : k = r
        · subst hkr; exact hz
        · exact h4 k (by omega) hk'
      · right
        refine ⟨?_, h2⟩
        intro k w hk hw
        have hk' : r ≤ k := hk
        by_cases hkr : k = r
        · subst hkr
          have : some w = some 0 := hw.symm.trans hz
          simpa using this
        · exact h1 k w (show r + 1 ≤ k by omega) hw
    · left
      have hg : data[r]? = some (data.getD r 0) := by
        rw [List.getD_eq_getElem?_getD, List.getElem?_eq_getElem hr]; rfl
      refine ⟨r, data.getD r 0, Nat.le_refl _, hg, h0, fun k a b => by omega, ?_⟩
      rw [next_some ⟨data, r⟩ hr h0]
      refine ⟨rfl, ?_, ?_⟩ <;> (simp only; try split) <;> rfl

/-- C13: an exhausted iterator stays exhausted. -/
theorem bar_exhausted (s : BaseAddresses) (h : s.next.1 = none) :
    s.next.2.next = (none, s.next.2) := by
  rcases bar_next s with ⟨r, w, _, _, _, _, h', _⟩ | ⟨_, _, hd, hl⟩
  · rw [h'] at h; simp at h
  · exact next_none _ (by rw [hd]; exact hl)

example : (BaseAddresses.new [0, 0]).next.1 = none := by decide +kernel

/-- C14: a 64-bit BAR in the last slot is reported as broken in that slot and ends the
iteration. -/
theorem bar_broken_last (data : List U32) (w : U32) (h64 : is64 w = true)
    (hu : isUpper (data ++ [w]) data.length = false) :
    BaseAddresses.collect (data.length + 2) (.new (data ++ [w])) =
      (List.range data.length).filterMap (barAt (data ++ [w])) ++
        [⟨data.length, .MemorySpace64Broken (flag w 3)⟩] := by
  rw [bar_iteration _ _ (by simp), barsOf]
  have hw0 : w ≠ 0 := by rintro rfl; simp [is64, fld] at h64
  have hk : barKind w none = .MemorySpace64Broken (flag w 3) := by
    simp only [is64, Bool.and_eq_true, Bool.not_eq_true', decide_eq_true_eq] at h64
    simp [barKind, h64.1, h64.2, pick]
  rw [List.length_append, List.length_singleton, List.range_succ, List.filterMap_append]
  refine congrArg (_ ++ ·) ?_
  have hb : barAt (data ++ [w]) data.length
      = some ⟨data.length, .MemorySpace64Broken (flag w 3)⟩ := by
    have h1 : (data ++ [w]).getD data.length 0 = w := by simp [List.getD_eq_getElem?_getD]
    have h2 : (data ++ [w])[data.length + 1]? = none := by simp
    rw [barAt, h1, h2, hk, if_neg]
    rintro (h | h)
    · rw [hu] at h; simp at h
    · exact hw0 h
  simp [hb]

/-- C14: a broken entry appears nowhere else. -/
theorem bar_broken_only_last (data : List U32) (b : BaseAddress) (p : Bool)
    (hb : b ∈ BaseAddresses.collect (data.length + 1) (.new data))
    (hk : b.base_address_type = .MemorySpace64Broken p) :
    b.region + 1 = data.length := by
  rw [bar_iteration_mem] at hb
  obtain ⟨r, w, hw, h0, hu, rfl⟩ := hb
  have hr := (List.getElem?_eq_some_iff.1 hw).1
  by_cases h1 : r + 1 < data.length
  · exfalso
    simp only [List.getElem?_eq_getElem h1, barKind, pick] at hk
    split at hk <;> simp at hk
    split at hk <;> [skip; split at hk <;> [skip; split at hk]] <;> simp at hk
  · show r + 1 = data.length
    omega

example : BaseAddresses.collect 3 (.new [0xe001, 0xfe00000c]) =
    [⟨0, .IoSpace 0xe000⟩, ⟨1, .MemorySpace64Broken true⟩] := by
  have := bar_broken_last [0xe001] 0xfe00000c (by decide) (by decide)
  exact this.trans (by decide)

/-- C15 does not hold as stated: collecting entries into fewer registers than they came from can
panic: a 64-bit BAR of slot 2, collected to the two registers of a bridge. -/
theorem bar_collect_panics :
    fromBaseAddresses 2 (BaseAddresses.collect 7 (.new [0, 0, 0xc000000c, 1, 0, 0])) = none := by
  rw [bar_iteration _ _ (by decide)]; decide +kernel

/-- C15 does not hold as stated: collecting loses the reserved bit of an I/O BAR, a BAR of reserved
type, and a broken 64-bit BAR. -/
theorem bar_collect_loses :
    fromBaseAddresses 3 (BaseAddresses.collect 4 (.new [0xe003, 0xfe000006, 0xfe00000c])) =
      some [0xe001, 0, 0] := by
  rw [bar_iteration _ _ (by decide)]; decide +kernel

/-- C15, weakened to registers without reserved encodings, collected into as many registers: the
registers are restored.  (The full claim, restoring every array, is refuted by `bar_collect_loses`
and `bar_collect_panics`.) -/
theorem bar_collect_roundtrip_partial (data : List U32)
    (h : ∀ r, r < data.length → representable data r) :
    fromBaseAddresses data.length (BaseAddresses.collect (data.length + 1) (.new data))
      = some data := by
  have hr : List.replicate data.length (0 : U32) = buf data 0 := by
    apply List.ext_getElem <;> simp [buf]
  rw [bar_iteration data _ (by omega), ← barsFrom_zero, fromBaseAddresses, hr,
    store_fold data _ 0 rfl rfl]
  congr 1
  apply List.ext_getElem
  · simp
  · intro k h1 h2
    simp only [List.getElem_map, List.getElem_range]
    have hk := h k h2
    have hg : data.getD k 0 = data[k] := by simp [List.getD_eq_getElem?_getD, h2]
    simp only [stored, representable, hg] at hk ⊢
    generalize data[k] = w at *
    cases hu : isUpper data k
    · simp only [hu, Bool.false_eq_true, false_or] at hk
      obtain ⟨ha, hb, hc⟩ := hk
      cases hio : flag w 0
      · have hb' := hb (by simp [hio])
        have hc' : ¬ (is64 w = true ∧ data.length ≤ k + 1) := by
          rintro ⟨h1, h2⟩; have := hc h1; omega
        rw [if_neg (by simp), if_neg (by simp), if_neg hb', if_neg hc']
      · have h1 := ha hio
        simp only [flag] at h1
        simp only [Bool.false_eq_true, if_false, if_true]
        bv_bits [h1]
    · simp

example : ∀ r, r < sampleBars.length → representable sampleBars r := by
  unfold representable; decide

/-- C15: what is restored in general: collecting into as many registers never panics, and only
reserved or broken encodings change. -/
theorem bar_collect_general (data : List U32) :
    fromBaseAddresses data.length (BaseAddresses.collect (data.length + 1) (.new data))
      = some ((List.range data.length).map (stored data)) := by
  have hr : List.replicate data.length (0 : U32) = buf data 0 := by
    apply List.ext_getElem <;> simp [buf]
  rw [bar_iteration data _ (by omega), ← barsFrom_zero, fromBaseAddresses, hr,
    store_fold data _ 0 rfl rfl]

/-- C58: two fresh register sets compare equal iff they denote the same BARs; in particular
comparison is an equivalence. -/
theorem bar_eq_iff (a b : List U32) :
    BaseAddresses.eq (.new a) (.new b) = true ↔ barsOf a = barsOf b := by
  simp only [BaseAddresses.eq, decide_eq_true_eq]
  rw [show (BaseAddresses.new a).data = a from rfl, show (BaseAddresses.new b).data = b from rfl,
    bar_iteration a _ (by omega), bar_iteration b _ (by omega)]

/-- C58: equality ignores the reserved bit 1 of an I/O BAR, so equal does not mean same
registers. -/
theorem bar_eq_not_registers :
    BaseAddresses.eq (.new [0xe001]) (.new [0xe003]) = true ∧ ([0xe001] : List U32) ≠ [0xe003] := by
  rw [bar_eq_iff]; decide

end Pcics.Header
