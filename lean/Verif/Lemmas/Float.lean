import Verif.Model.Float
import Mathlib.Tactic.Linarith
import Mathlib.Tactic.Positivity
import Mathlib.Tactic.NormNum
import Mathlib.Tactic.FieldSimp
import Mathlib.Tactic.Ring
/- Rounding lemmas: half an ulp of error, representable numbers are fixed. -/

namespace Pcics

theorem roundHalfEven_err (x : ℚ) : |(roundHalfEven x : ℚ) - x| ≤ 1 / 2 := by
  have h1 := Int.floor_le x
  have h2 := Int.lt_floor_add_one x
  unfold roundHalfEven
  dsimp only
  split
  · rw [abs_le]; constructor <;> linarith
  · split
    · push_cast; rw [abs_le]; constructor <;> linarith
    · split
      · rw [abs_le]; constructor <;> linarith
      · push_cast; rw [abs_le]; constructor <;> linarith

/-- Of two integers that are equally near, the even one is taken. -/
theorem roundHalfEven_tie (x : ℚ) (h : |(roundHalfEven x : ℚ) - x| = 1 / 2) :
    roundHalfEven x % 2 = 0 := by
  have h1 := Int.floor_le x
  have h2 := Int.lt_floor_add_one x
  unfold roundHalfEven at h ⊢
  dsimp only at h ⊢
  split at h
  · rename_i hr
    rw [abs_sub_comm, abs_of_nonneg (by linarith)] at h
    linarith
  · rename_i hr
    rw [if_neg hr]
    split at h
    · rename_i hr'
      push_cast at h
      rw [abs_of_nonneg (by linarith)] at h
      linarith
    · rename_i hr'
      rw [if_neg hr']
      split
      · assumption
      · omega

theorem roundHalfEven_int (n : ℤ) : roundHalfEven (n : ℚ) = n := by
  unfold roundHalfEven
  simp

/-- relative error at most half a unit in the last place -/
theorem roundTo_err (p : ℕ) (x : ℚ) (hx : 0 < x) :
    |roundTo p x - x| ≤ x * (1 / 2 ^ p) := by
  unfold roundTo
  rw [if_neg hx.ne']
  dsimp only
  rw [abs_of_pos hx]
  have hlog : (2 : ℚ) ^ Int.log 2 x ≤ x := Int.zpow_log_le_self (by norm_num) hx
  generalize Int.log 2 x = L at hlog
  have he : (0 : ℚ) < 2 ^ (L - ((p : ℤ) - 1)) := zpow_pos (by norm_num) _
  have hr := roundHalfEven_err (x / 2 ^ (L - ((p : ℤ) - 1)))
  have hp : (2 : ℚ) ^ (L - ((p : ℤ) - 1)) = 2 ^ L * 2 * (1 / 2 ^ p) := by
    rw [show L - ((p : ℤ) - 1) = L + 1 - p by ring, zpow_sub₀ (by norm_num),
      zpow_add₀ (by norm_num), zpow_one, zpow_natCast]
    ring
  have key : (roundHalfEven (x / 2 ^ (L - ((p : ℤ) - 1))) : ℚ) * 2 ^ (L - ((p : ℤ) - 1)) - x =
      ((roundHalfEven (x / 2 ^ (L - ((p : ℤ) - 1))) : ℚ) - x / 2 ^ (L - ((p : ℤ) - 1))) *
        2 ^ (L - ((p : ℤ) - 1)) := by
    field_simp
  rw [key, abs_mul, abs_of_pos he]
  calc _ ≤ 1 / 2 * (2 : ℚ) ^ (L - ((p : ℤ) - 1)) := by
        exact mul_le_mul_of_nonneg_right hr he.le
    _ = 2 ^ L * (1 / 2 ^ p) := by rw [hp]; ring
    _ ≤ x * (1 / 2 ^ p) := by
        exact mul_le_mul_of_nonneg_right hlog (by positivity)

/-- natural numbers below `2 ^ p` are representable -/
theorem roundTo_nat (p n : ℕ) (h : n < 2 ^ p) : roundTo p (n : ℚ) = n := by
  unfold roundTo
  split
  · simp_all
  · rename_i hn
    have hn0 : n ≠ 0 := by simpa using hn
    dsimp only
    rw [abs_of_nonneg (by positivity), Int.log_natCast]
    have hl : Nat.log 2 n ≤ p - 1 := by
      have := Nat.log_lt_of_lt_pow hn0 h
      omega
    have hp1 : 1 ≤ p := by
      rcases p with _ | p
      · simp at h; omega
      · omega
    obtain ⟨k, hk⟩ : ∃ k : ℕ, ((Nat.log 2 n : ℕ) : ℤ) - ((p : ℤ) - 1) = -(k : ℤ) :=
      ⟨p - 1 - Nat.log 2 n, by omega⟩
    rw [hk]
    have : ((n : ℚ) / 2 ^ (-(k : ℤ))) = ((n * 2 ^ k : ℤ) : ℚ) := by
      rw [zpow_neg, zpow_natCast]; push_cast; field_simp
    rw [this, roundHalfEven_int, zpow_neg, zpow_natCast]
    push_cast
    field_simp

end Pcics
