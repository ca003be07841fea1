import Verif.Spec.Bar
import Verif.Lemmas.Tactics
import Verif.Lemmas.Bv
/- Lemmas about the base address iterator. -/

namespace Pcics.Header
open Spec

theorem io_bit (w : U32) : (w &&& 0b1#32 != 0) = flag w 0 := by
  have : w &&& 0b1#32 = bif flag w 0 then 1 else 0 := by
    bv_bits []
  rw [this]; cases flag w 0 <;> rfl

theorem prefetch_bit (w : U32) : (w &&& 0b1000#32 != 0) = flag w 3 := by
  have : w &&& 0b1000#32 = bif flag w 3 then 8 else 0 := by
    bv_bits []
  rw [this]; cases flag w 3 <;> rfl

theorem type_bits (w : U32) : (w &&& 0b110#32).toNat = 2 * (fld w 1 2 : U8).toNat := by
  have : w &&& 0b110#32 = ((fld w 1 2 : U8).setWidth 32) <<< 1 := by bv_bits []
  rw [this]
  have := (BitVec.extractLsb' 1 2 w).isLt
  simp only [fld, BitVec.toNat_shiftLeft, BitVec.toNat_setWidth, Nat.shiftLeft_eq]
  omega

theorem fld2_lt (w : U32) : (fld w 1 2 : U8).toNat < 4 := by
  have := (BitVec.extractLsb' 1 2 w).isLt
  simp only [fld, BitVec.toNat_setWidth]
  omega

theorem mask4 (w : U32) : w &&& ~~~0b1111#32 = (fld w 4 28 : U32) <<< 4 := by bv_bits []
theorem mask2 (w : U32) : w &&& ~~~0b11#32 = (fld w 2 30 : U32) <<< 2 := by bv_bits []
theorem cat64 (u x : U32) : (u.setWidth 64 <<< 32) ||| x.setWidth 64 = cat u x := by bv_bits []

/-- One decoded item. -/
theorem item_spec (r : Nat) (w : U32) (s : BaseAddresses) :
    BaseAddresses.item r w s =
      ({ region := r, base_address_type := barKind w s.data[s.region]? },
       { s with region := s.region + (if is64 w ∧ s.region < s.data.length then 1 else 0) }) := by
  unfold BaseAddresses.item barKind is64
  simp only [io_bit, prefetch_bit, mask4, mask2, cat64, type_bits, pick, BitVec.toNat_eq]
  have h := fld2_lt w
  generalize hc : (fld w 1 2 : U8).toNat = c at h
  cases hio : flag w 0
  · match c, h with
    | 0, _ => simp
    | 1, _ => simp
    | 2, _ =>
      by_cases hr : s.region < s.data.length
      · simp [BaseAddresses.fetch, hr]
      · simp [BaseAddresses.fetch, hr]
    | 3, _ => simp
  · simp

theorem next_none (s : BaseAddresses) (h : s.data.length ≤ s.region) : s.next = (none, s) := by
  rw [BaseAddresses.next]
  have : s.data[s.region]? = none := by simp [h]
  split
  · rfl
  · simp_all

theorem next_zero (s : BaseAddresses) (h : s.region < s.data.length)
    (h0 : s.data.getD s.region 0 = 0) :
    s.next = ({ s with region := s.region + 1 } : BaseAddresses).next := by
  rw [BaseAddresses.next]
  have : s.data[s.region]? = some 0 := by
    simp [List.getD_eq_getElem?_getD, h] at h0 ⊢; exact h0
  split
  · simp_all
  · rename_i dword hd
    rw [this] at hd
    cases hd
    simp

theorem next_some (s : BaseAddresses) (h : s.region < s.data.length)
    (h0 : s.data.getD s.region 0 ≠ 0) :
    s.next = (some ⟨s.region, barKind (s.data.getD s.region 0) s.data[s.region + 1]?⟩,
      { s with region := s.region + 1 +
          (if is64 (s.data.getD s.region 0) ∧ s.region + 1 < s.data.length then 1 else 0) }) := by
  rw [BaseAddresses.next]
  have hs : s.data[s.region]? = some (s.data.getD s.region 0) := by
    simp [List.getD_eq_getElem?_getD, h]
  split
  · simp_all
  · rename_i dword hd
    rw [hs] at hd
    cases hd
    have : (s.data.getD s.region 0 == 0) = false := by simpa using h0
    simp only [this, item_spec]
    simp

/-- Items contributed by the slots from `r` on. -/
def barsFrom (data : List U32) (r : Nat) : List BaseAddress :=
  (List.range' r (data.length - r)).filterMap (barAt data)

theorem barsFrom_step (data : List U32) (r : Nat) (h : r < data.length) :
    barsFrom data r = (barAt data r).toList ++ barsFrom data (r + 1) := by
  unfold barsFrom
  obtain ⟨k, hk⟩ : ∃ k, data.length - r = k + 1 := ⟨data.length - r - 1, by omega⟩
  rw [hk, List.range'_succ, List.filterMap_cons, show data.length - (r + 1) = k by omega]
  cases barAt data r <;> rfl

theorem barsFrom_end (data : List U32) (r : Nat) (h : data.length ≤ r) : barsFrom data r = [] := by
  simp [barsFrom, show data.length - r = 0 by omega]

theorem collect_spec (data : List U32) :
    ∀ (fuel r : Nat), data.length - r < fuel → isUpper data r = false →
      BaseAddresses.collect fuel { data := data, region := r } = barsFrom data r := by
  suffices H : ∀ (n r : Nat), data.length - r = n → isUpper data r = false →
      ∀ fuel, n < fuel →
      BaseAddresses.collect fuel { data := data, region := r } = barsFrom data r by
    intro fuel r h hu; exact H _ r rfl hu fuel h
  intro n
  induction n using Nat.strongRecOn with
  | _ n ih =>
    intro r hn hu fuel hf
    obtain ⟨f, rfl⟩ : ∃ f, fuel = f + 1 := ⟨fuel - 1, by omega⟩
    by_cases hr : r < data.length
    · by_cases h0 : data.getD r 0 = 0
      · -- zero slot
        have hu' : isUpper data (r + 1) = false := by
          simp only [isUpper, hu, h0]; rfl
        have := ih (n - 1) (by omega) (r + 1) (by omega) hu' (f + 1) (by omega)
        rw [barsFrom_step _ _ hr, show barAt data r = none by simp only [barAt, h0, or_true, if_true]]
        rw [Option.toList_none, List.nil_append, ← this]
        simp only [BaseAddresses.collect]
        rw [next_zero _ hr h0]
      · have hb : barAt data r = some ⟨r, barKind (data.getD r 0) data[r + 1]?⟩ := by
          simp only [barAt, hu, h0]; simp
        rw [barsFrom_step _ _ hr, hb]
        simp only [BaseAddresses.collect]
        rw [next_some _ hr h0]
        simp only [Option.toList_some, List.cons_append, List.nil_append, List.cons.injEq, true_and]
        by_cases h64 : is64 (data.getD r 0) = true
        · by_cases hr1 : r + 1 < data.length
          · simp only [h64, hr1, and_self, if_true]
            have hup : isUpper data (r + 1) = true := by
              simp only [isUpper, hu, h64]; rfl
            have hu' : isUpper data (r + 2) = false := by
              rw [isUpper, hup]; rfl
            have := ih (n - 2) (by omega) (r + 1 + 1) (by omega) hu' f (by omega)
            rw [this, barsFrom_step _ _ hr1,
              show barAt data (r + 1) = none by simp only [barAt, hup, true_or, if_true]]
            rfl
          · simp only [hr1, and_false, if_false, Nat.add_zero]
            rw [barsFrom_end _ _ (by omega)]
            cases f with
            | zero => rfl
            | succ f => simp only [BaseAddresses.collect]; rw [next_none _ (by simp; omega)]
        · have h64' : is64 (data.getD r 0) = false := by simpa using h64
          simp only [h64', Bool.false_eq_true, false_and, if_false, Nat.add_zero]
          have hu' : isUpper data (r + 1) = false := by
            simp only [isUpper, hu, h64']; rfl
          exact ih (n - 1) (by omega) (r + 1) (by omega) hu' f (by omega)
    · rw [barsFrom_end _ _ (by omega)]
      simp only [BaseAddresses.collect]
      rw [next_none _ (by simp; omega)]

theorem barsFrom_zero (data : List U32) : barsFrom data 0 = barsOf data := by
  simp [barsFrom, barsOf, List.range_eq_range']

/-! ### collecting back -/

/-- The register array when the slots below `r` have been written. -/
def buf (data : List U32) (r : Nat) : List U32 :=
  (List.range data.length).map fun k => if k < r then stored data k else 0

theorem buf_length (data : List U32) (r : Nat) : (buf data r).length = data.length := by
  simp [buf]

theorem buf_set (data : List U32) (r : Nat) :
    (buf data r).set r (stored data r) = buf data (r + 1) := by
  apply List.ext_getElem
  · simp [buf]
  · intro k h1 h2
    simp only [buf, List.getElem_set, List.getElem_map, List.getElem_range]
    by_cases hk : r = k
    · subst hk; simp
    · simp only [hk, if_false]
      by_cases h : k < r
      · simp [h, show k < r + 1 by omega]
      · simp [h, show ¬ k < r + 1 by omega]

theorem buf_skip (data : List U32) (r : Nat) (h : stored data r = 0) :
    buf data (r + 1) = buf data r := by
  rw [← buf_set, h]
  apply List.ext_getElem
  · simp [buf]
  · intro k h1 h2
    simp only [buf, List.getElem_set, List.getElem_map, List.getElem_range]
    by_cases hk : r = k
    · subst hk; simp
    · simp [hk]

theorem buf_end (data : List U32) (r : Nat) (h : data.length ≤ r) :
    buf data r = (List.range data.length).map (stored data) := by
  unfold buf
  apply List.map_congr_left
  intro k hk
  have := List.mem_range.1 hk
  simp [show k < r by omega]

theorem re_io (w : U32) (h : flag w 0 = true) :
    ((fld w 2 30 : U32) <<< 2) &&& 4294967292#32 ||| 0b01#32 = w &&& ~~~0b10#32 := by
  simp only [flag] at h
  bv_bits [h]

theorem ty0 (w : U32) (h : (fld w 1 2 : U8) = 0) : w.getLsbD 1 = false ∧ w.getLsbD 2 = false := by
  have h0 := congrArg (fun x => x.getLsbD 0) h
  have h1 := congrArg (fun x => x.getLsbD 1) h
  simpa [-BitVec.getLsbD_eq_getElem, getLsbD_fld] using And.intro h0 h1

theorem ty1 (w : U32) (h : (fld w 1 2 : U8) = 1) : w.getLsbD 1 = true ∧ w.getLsbD 2 = false := by
  have h0 := congrArg (fun x => x.getLsbD 0) h
  have h1 := congrArg (fun x => x.getLsbD 1) h
  simpa [-BitVec.getLsbD_eq_getElem, getLsbD_fld] using And.intro h0 h1

theorem ty2 (w : U32) (h : (fld w 1 2 : U8) = 2) : w.getLsbD 1 = false ∧ w.getLsbD 2 = true := by
  have h0 := congrArg (fun x => x.getLsbD 0) h
  have h1 := congrArg (fun x => x.getLsbD 1) h
  simpa [-BitVec.getLsbD_eq_getElem, getLsbD_fld] using And.intro h0 h1

theorem re_m32 (w : U32) (h : flag w 0 = false) (h2 : (fld w 1 2 : U8) = 0) :
    ((fld w 4 28 : U32) <<< 4) &&& 4294967280#32 ||| (BitVec.ofNat 32 (b2n (flag w 3)) <<< 3)
      = w := by
  obtain ⟨a, b⟩ := ty0 w h2
  simp only [flag] at h
  bv_bits [h, a, b]

theorem re_m1 (w : U32) (h : flag w 0 = false) (h2 : (fld w 1 2 : U8) = 1) :
    ((fld w 4 28 : U32) <<< 4) &&& 4294967280#32 ||| 0b010#32
      ||| (BitVec.ofNat 32 (b2n (flag w 3)) <<< 3) = w := by
  obtain ⟨a, b⟩ := ty1 w h2
  simp only [flag] at h
  bv_bits [h, a, b]

theorem re_m64 (w u : U32) (h : flag w 0 = false) (h2 : (fld w 1 2 : U8) = 2) :
    ((cat u ((fld w 4 28 : U32) <<< 4) : U64).setWidth 32) &&& 4294967280#32 ||| 0b100#32
      ||| (BitVec.ofNat 32 (b2n (flag w 3)) <<< 3) = w := by
  obtain ⟨a, b⟩ := ty2 w h2
  simp only [flag] at h
  bv_bits [h, a, b]

theorem re_m64u (w u : U32) :
    ((cat u ((fld w 4 28 : U32) <<< 4) : U64) >>> 32).setWidth 32 = u := by bv_bits []

/-- Storing the item of slot `r`. -/
theorem store_spec (data : List U32) (r : Nat) (hr : r < data.length)
    (hu : isUpper data r = false) :
    BaseAddress.store (buf data r) ⟨r, barKind (data.getD r 0) data[r + 1]?⟩ =
      some (buf data (r + 1 +
        (if is64 (data.getD r 0) ∧ r + 1 < data.length then 1 else 0))) := by
  have hlen : ¬ data.length = 0 := by omega
  have hmin : min r (data.length - 1) = r := by omega
  unfold BaseAddress.store
  simp only [buf_length, hlen, if_false, hmin, List.length_set]
  have hst : stored data r = (if flag (data.getD r 0) 0 then data.getD r 0 &&& ~~~0b10#32
      else if (fld (data.getD r 0) 1 2 : U8) = 3 then 0
      else if is64 (data.getD r 0) ∧ data.length ≤ r + 1 then 0 else data.getD r 0) := by
    simp only [stored, hu]; rfl
  generalize hw : data.getD r 0 = w at *
  have h4 := fld2_lt w
  cases hio : flag w 0
  · have hc : (fld w 1 2 : U8) = 0 ∨ (fld w 1 2 : U8) = 1 ∨ (fld w 1 2 : U8) = 2 ∨
        (fld w 1 2 : U8) = 3 := by
      simp only [BitVec.toNat_eq]; simp; omega
    rcases hc with hc | hc | hc | hc
    · have h64 : is64 w = false := by simp [is64, hio, hc]
      simp only [hio, hc, h64] at hst
      simp only [barKind, hio, hc, h64, pick]
      have : stored data r = w := by rw [hst]; simp
      simp [re_m32 w hio hc]
      rw [← this, buf_set]
    · have h64 : is64 w = false := by simp [is64, hio, hc]
      simp only [hio, hc, h64] at hst
      simp only [barKind, hio, hc, h64, pick]
      have : stored data r = w := by rw [hst]; simp
      simp [re_m1 w hio hc]
      rw [← this, buf_set]
    · have h64 : is64 w = true := by simp [is64, hio, hc]
      simp only [hio, hc, h64] at hst
      simp only [barKind, hio, hc, h64, pick]
      by_cases h1 : r + 1 < data.length
      · have : stored data r = w := by rw [hst]; simp; omega
        have hu1 : isUpper data (r + 1) = true := by simp only [isUpper, hu, hw, h64]; rfl
        have h2 : stored data (r + 1) = data[r + 1] := by
          simp only [stored, hu1, if_true]; simp [List.getD_eq_getElem?_getD, h1]
        simp [h1, re_m64 w _ hio hc, re_m64u]
        rw [← this, buf_set, ← h2, buf_set]
      · have : stored data r = 0 := by rw [hst]; simp; omega
        simp [h1]
        rw [buf_skip _ _ this]
    · have h64 : is64 w = false := by simp [is64, hio, hc]
      simp only [hio, hc, h64] at hst
      simp only [barKind, hio, hc, h64, pick]
      have : stored data r = 0 := by rw [hst]; simp
      simp
      rw [buf_skip _ _ this]
  · have h64 : is64 w = false := by simp [is64, hio]
    simp only [hio] at hst
    simp only [barKind, hio, h64]
    have : stored data r = w &&& ~~~0b10#32 := by rw [hst]; simp
    simp [re_io w hio]
    rw [show w &&& 4294967293#32 = stored data r from this.symm, buf_set]

theorem store_fold (data : List U32) :
    ∀ (n r : Nat), data.length - r = n → isUpper data r = false →
      (barsFrom data r).foldlM BaseAddress.store (buf data r)
        = some ((List.range data.length).map (stored data)) := by
  intro n
  induction n using Nat.strongRecOn with
  | _ n ih =>
    intro r hn hu
    by_cases hr : r < data.length
    · by_cases h0 : data.getD r 0 = 0
      · have hu' : isUpper data (r + 1) = false := by
          simp only [isUpper, hu, h0]; rfl
        have := ih (n - 1) (by omega) (r + 1) (by omega) hu'
        rw [barsFrom_step _ _ hr,
          show barAt data r = none by simp only [barAt, h0, or_true, if_true]]
        have hs : stored data r = 0 := by simp only [stored, hu, h0]; rfl
        rw [Option.toList_none, List.nil_append, ← this, buf_skip _ _ hs]
      · have hb : barAt data r = some ⟨r, barKind (data.getD r 0) data[r + 1]?⟩ := by
          simp only [barAt, hu, h0]; simp
        rw [barsFrom_step _ _ hr, hb]
        simp only [Option.toList_some, List.cons_append, List.nil_append, List.foldlM_cons]
        rw [store_spec data r hr hu]
        simp only [Option.bind_eq_bind, Option.bind_some]
        by_cases h64 : is64 (data.getD r 0) = true
        · by_cases hr1 : r + 1 < data.length
          · simp only [h64, hr1, and_self, if_true]
            have hup : isUpper data (r + 1) = true := by
              simp only [isUpper, hu, h64]; rfl
            have hu' : isUpper data (r + 2) = false := by
              rw [isUpper, hup]; rfl
            have := ih (n - 2) (by omega) (r + 1 + 1) (by omega) hu'
            rw [barsFrom_step _ _ hr1,
              show barAt data (r + 1) = none by simp only [barAt, hup, true_or, if_true]]
            exact this
          · simp only [hr1, and_false, if_false, Nat.add_zero]
            rw [barsFrom_end _ _ (by omega), buf_end _ _ (by omega)]
            rfl
        · have h64' : is64 (data.getD r 0) = false := by simpa using h64
          simp only [h64', Bool.false_eq_true, false_and, if_false, Nat.add_zero]
          have hu' : isUpper data (r + 1) = false := by
            simp only [isUpper, hu, h64']; rfl
          exact ih (n - 1) (by omega) (r + 1) (by omega) hu'
    · rw [barsFrom_end _ _ (by omega), buf_end _ _ (by omega)]
      rfl

end Pcics.Header
