import Verif.F32
import Mathlib.Tactic.Linarith
import Mathlib.Tactic.Positivity
import Mathlib.Tactic.NormNum
import Mathlib.Tactic.Push
/-!
# Lemmas on binary32 rounding
-/
namespace FastNoise.F32
open FastNoise.Num

theorem roundEven_le {y : ℝ} {n : ℤ} (h : y ≤ n) : roundEven y ≤ n := by
  have hf : ⌊y⌋ ≤ n := by exact_mod_cast (Int.floor_le y).trans h
  unfold roundEven
  by_cases hc : y - ⌊y⌋ < 1 / 2
  · rw [if_pos hc]; exact hf
  · rw [if_neg hc]
    have : ⌊y⌋ + 1 ≤ n := by
      by_contra hx
      have e : ⌊y⌋ = n := by omega
      have h1 : (⌊y⌋ : ℝ) = n := by exact_mod_cast e
      rw [h1] at hc; linarith
    split
    · exact this
    · split
      · exact hf
      · exact this

theorem le_roundEven {y : ℝ} {n : ℤ} (h : (n : ℝ) ≤ y) : n ≤ roundEven y := by
  have hf : n ≤ ⌊y⌋ := Int.le_floor.mpr h
  unfold roundEven
  split
  · exact hf
  · split
    · omega
    · split <;> omega

theorem roundEven_int (n : ℤ) : roundEven (n : ℝ) = n :=
  le_antisymm (roundEven_le le_rfl) (le_roundEven le_rfl)

theorem roundEven_err (y : ℝ) : |(roundEven y : ℝ) - y| ≤ 1 / 2 := by
  have h1 := Int.floor_le y
  have h2 := Int.lt_floor_add_one y
  unfold roundEven
  rw [abs_le]
  split
  · constructor <;> linarith
  · split
    · push_cast; constructor <;> linarith
    · split
      · constructor <;> linarith
      · push_cast; constructor <;> linarith

/-- Half way above an even number rounds down to it. -/
theorem roundEven_half {y : ℝ} {n : ℤ} (he : n % 2 = 0) (h : y ≤ n + 1 / 2) : roundEven y ≤ n := by
  by_cases hy : y ≤ n
  · exact roundEven_le hy
  push Not at hy
  have hf : ⌊y⌋ = n := by
    rw [Int.floor_eq_iff]; constructor <;> linarith
  unfold roundEven
  rw [hf]
  by_cases h1 : y - n < 1 / 2
  · rw [if_pos h1]
  · rw [if_neg h1, if_neg (by linarith), if_pos he]

theorem two_zpow_pos (e : ℤ) : (0 : ℝ) < 2 ^ e := by positivity

theorem rep_zero : Rep 0 := ⟨0, 0, by norm_num, by norm_num, by simp⟩

theorem rep_neg {x : ℝ} (h : Rep x) : Rep (-x) := by
  obtain ⟨m, e, h1, h2, h3⟩ := h
  exact ⟨-m, e, by rwa [abs_neg], h2, by rw [h3]; push_cast; ring⟩

theorem rep_int {n : ℤ} (h : |n| ≤ 2 ^ 24) : Rep n := ⟨n, 0, h, by norm_num, by simp⟩

theorem rep_pow {e : ℤ} (h : -149 ≤ e) : Rep ((2 : ℝ) ^ e) := ⟨1, e, by norm_num, h, by simp⟩

theorem rep_mul_pow {x : ℝ} {k : ℤ} (hx : ∃ m e : ℤ, |m| ≤ 2 ^ 24 ∧ -149 ≤ e + k ∧ x = m * 2 ^ e) : Rep (x * 2 ^ k) := by
  obtain ⟨m, e, h1, h2, rfl⟩ := hx
  exact ⟨m, e + k, h1, h2, by rw [zpow_add₀ (by norm_num)]; ring⟩

/-- Scaling up by a power of two is exact. -/
theorem rep_mul_pow_nonneg {x : ℝ} (h : Rep x) {k : ℤ} (hk : 0 ≤ k) : Rep (x * 2 ^ k) := by
  obtain ⟨m, e, h1, h2, h3⟩ := h
  exact rep_mul_pow ⟨m, e, h1, by omega, h3⟩

theorem lastPlace_ge (x : ℝ) : -149 ≤ lastPlace x := le_max_left _ _

/-- `x` in units of its last place has at most 24 bits. -/
theorem abs_div_lt (x : ℝ) : |x| / 2 ^ lastPlace x < 2 ^ 24 := by
  rw [div_lt_iff₀ (two_zpow_pos _)]
  have h := Int.lt_zpow_succ_log_self (b := 2) (by norm_num) |x|
  refine lt_of_lt_of_le h ?_
  rw [show ((2 : ℝ) ^ 24) = 2 ^ (24 : ℤ) by norm_num, ← zpow_add₀ (by norm_num)]
  push_cast
  refine zpow_le_zpow_right₀ (by norm_num) ?_
  have : Int.log 2 |x| - 23 ≤ lastPlace x := le_max_right _ _
  omega

/-- Unless it is as small as it can be, the last place leaves at least 24 bits. -/
theorem le_abs_div {x : ℝ} (hx : x ≠ 0) (h : -149 < lastPlace x) : (2 : ℝ) ^ (lastPlace x + 23) ≤ |x| := by
  have e : lastPlace x = Int.log 2 |x| - 23 := by
    unfold lastPlace at h ⊢
    rcases max_choice (-149) (Int.log 2 |x| - 23) with h1 | h1
    · rw [h1] at h; omega
    · exact h1
  rw [e, sub_add_cancel]
  have := Int.zpow_log_le_self (b := 2) (by norm_num) (abs_pos.mpr hx)
  push_cast at this
  exact this

theorem fl_zero : fl 0 = 0 := by
  unfold fl; rw [zero_div]
  have := roundEven_int 0
  push_cast at this
  rw [this]; simp

/-- Between `x` and a binary32 number above it lies a multiple of the last place of `x`. -/
theorem multiple_between {x r : ℝ} (hx : x ≠ 0) (hr : Rep r) (h : x ≤ r) :
    ∃ n : ℤ, x ≤ n * 2 ^ lastPlace x ∧ (n : ℝ) * 2 ^ lastPlace x ≤ r := by
  obtain ⟨m, e, hm, he, rfl⟩ := hr
  by_cases hle : lastPlace x ≤ e
  · have e1 : ((m * 2 ^ (e - lastPlace x).toNat : ℤ) : ℝ) * 2 ^ lastPlace x = m * 2 ^ e := by
      push_cast
      rw [mul_assoc, ← zpow_natCast, ← zpow_add₀ (by norm_num : (2 : ℝ) ≠ 0)]
      congr 2; omega
    exact ⟨m * 2 ^ (e - lastPlace x).toNat, by rw [e1]; exact h, by rw [e1]⟩
  · push Not at hle
    have hl := le_abs_div hx (by omega)
    -- the number r is at most 2^(lastPlace x + 23) in size
    have hrm : |(m : ℝ) * 2 ^ e| ≤ 2 ^ (lastPlace x + 23) := by
      rw [abs_mul, abs_of_pos (two_zpow_pos e)]
      have : |(m : ℝ)| ≤ 2 ^ (24 : ℤ) := by
        rw [show (2 : ℝ) ^ (24 : ℤ) = 16777216 by norm_num]
        have : |m| ≤ 16777216 := by norm_num at hm; exact hm
        exact_mod_cast this
      calc |(m : ℝ)| * 2 ^ e ≤ 2 ^ (24 : ℤ) * 2 ^ e := mul_le_mul_of_nonneg_right this (two_zpow_pos e).le
        _ = 2 ^ (24 + e) := by rw [zpow_add₀ (by norm_num)]
        _ ≤ 2 ^ (lastPlace x + 23) := zpow_le_zpow_right₀ (by norm_num) (by omega)
    have hsplit : (2 : ℝ) ^ (lastPlace x + 23) = 2 ^ 23 * 2 ^ lastPlace x := by
      rw [zpow_add₀ (by norm_num), mul_comm]; norm_num
    rcases lt_or_gt_of_ne hx with hneg | hpos
    · rw [abs_of_neg hneg] at hl
      refine ⟨-2 ^ 23, ?_, ?_⟩
      · push_cast; rw [hsplit] at hl; linarith
      · push_cast
        have := (abs_le.mp hrm).1
        rw [hsplit] at this; linarith
    · rw [abs_of_pos hpos] at hl
      have h2 := (abs_le.mp hrm).2
      refine ⟨2 ^ 23, ?_, ?_⟩
      · push_cast
        rw [hsplit] at h2; linarith
      · push_cast
        rw [hsplit] at hl; linarith

/-- Rounding never crosses a binary32 number (from below). -/
theorem fl_le {x r : ℝ} (hr : Rep r) (h : x ≤ r) : fl x ≤ r := by
  by_cases hx : x = 0
  · subst hx; rw [fl_zero]; exact h
  have hp := two_zpow_pos (lastPlace x)
  obtain ⟨n, h1, h2⟩ := multiple_between hx hr h
  refine le_trans ?_ h2
  unfold fl
  refine mul_le_mul_of_nonneg_right ?_ hp.le
  have : roundEven (x / 2 ^ lastPlace x) ≤ n := roundEven_le (by rwa [div_le_iff₀ hp])
  exact_mod_cast this

theorem roundEven_neg (y : ℝ) : roundEven (-y) = -roundEven y := by
  by_cases hy : y = ⌊y⌋
  · rw [hy]
    have := roundEven_int (-⌊y⌋)
    push_cast at this
    rw [this, roundEven_int]
  have h1 : (⌊y⌋ : ℝ) < y := lt_of_le_of_ne (Int.floor_le y) (Ne.symm hy)
  have h2 := Int.lt_floor_add_one y
  have hf : ⌊-y⌋ = -⌊y⌋ - 1 := by
    rw [Int.floor_eq_iff]; push_cast; constructor <;> linarith
  unfold roundEven
  rw [hf]
  push_cast
  by_cases ha : y - ⌊y⌋ < 1 / 2
  · rw [if_pos ha, if_neg (by linarith), if_pos (by linarith)]; omega
  · rw [if_neg ha]
    by_cases hb : 1 / 2 < y - ⌊y⌋
    · rw [if_pos hb, if_pos (by linarith)]; omega
    · rw [if_neg hb, if_neg (by linarith), if_neg (by linarith)]
      by_cases hc : ⌊y⌋ % 2 = 0
      · rw [if_pos hc, if_neg (by omega)]; omega
      · rw [if_neg hc, if_pos (by omega)]; omega

theorem fl_neg (x : ℝ) : fl (-x) = -fl x := by
  have : lastPlace (-x) = lastPlace x := by unfold lastPlace; rw [abs_neg]
  unfold fl
  rw [this, neg_div, roundEven_neg]; push_cast; ring

/-- Rounding never crosses a binary32 number (from above). -/
theorem le_fl {x r : ℝ} (hr : Rep r) (h : r ≤ x) : r ≤ fl x := by
  have := fl_le (x := -x) (rep_neg hr) (by linarith)
  rw [fl_neg] at this; linarith

/-- Rounding leaves binary32 numbers alone. -/
theorem fl_rep {x : ℝ} (h : Rep x) : fl x = x := le_antisymm (fl_le h le_rfl) (le_fl h le_rfl)

/-- The result of rounding is a binary32 number. -/
theorem rep_fl (x : ℝ) : Rep (fl x) := by
  refine ⟨roundEven (x / 2 ^ lastPlace x), lastPlace x, ?_, lastPlace_ge x, rfl⟩
  have h := abs_div_lt x
  have hp := two_zpow_pos (lastPlace x)
  have h1 : |x / 2 ^ lastPlace x| ≤ 2 ^ 24 := by rw [abs_div, abs_of_pos hp]; exact h.le
  rw [abs_le] at h1 ⊢
  constructor
  · have := le_roundEven (y := x / 2 ^ lastPlace x) (n := -2 ^ 24) (by push_cast; linarith [h1.1])
    exact this
  · exact roundEven_le (by push_cast; linarith [h1.2])

theorem roundEven_nearest (y : ℝ) (n : ℤ) : |(roundEven y : ℝ) - y| ≤ |(n : ℝ) - y| := by
  have he := roundEven_err y
  by_cases h : n = roundEven y
  · rw [h]
  have h1 : (1 : ℝ) ≤ |((n - roundEven y : ℤ) : ℝ)| := by
    have : (1 : ℤ) ≤ |n - roundEven y| := Int.one_le_abs (by omega)
    exact_mod_cast this
  push_cast at h1
  have h2 : |(n : ℝ) - roundEven y| ≤ |(n : ℝ) - y| + |y - roundEven y| := by
    have := abs_add_le ((n : ℝ) - y) (y - roundEven y)
    rwa [sub_add_sub_cancel] at this
  rw [abs_sub_comm y] at h2
  linarith

/-- Rounding gives a nearest binary32 number. -/
theorem fl_nearest (x : ℝ) {r : ℝ} (hr : Rep r) : |fl x - x| ≤ |r - x| := by
  have up : ∀ x r : ℝ, Rep r → x ≤ r → |fl x - x| ≤ |r - x| := by
    intro x r hr h
    by_cases hx : x = 0
    · subst hx; rw [fl_zero]; simp
    obtain ⟨n, h1, h2⟩ := multiple_between hx hr h
    have hp := two_zpow_pos (lastPlace x)
    have h3 := roundEven_nearest (x / 2 ^ lastPlace x) n
    have e1 : fl x - x = ((roundEven (x / 2 ^ lastPlace x) : ℝ) - x / 2 ^ lastPlace x) * 2 ^ lastPlace x := by
      unfold fl; field_simp
    have e2 : (n : ℝ) * 2 ^ lastPlace x - x = ((n : ℝ) - x / 2 ^ lastPlace x) * 2 ^ lastPlace x := by field_simp
    have h4 : |fl x - x| ≤ |(n : ℝ) * 2 ^ lastPlace x - x| := by
      rw [e1, e2, abs_mul, abs_mul]
      exact mul_le_mul_of_nonneg_right h3 (abs_nonneg _)
    refine h4.trans ?_
    rw [abs_of_nonneg (by linarith), abs_of_nonneg (by linarith)]; linarith
  rcases le_total x r with h | h
  · exact up x r hr h
  · have := up (-x) (-r) (rep_neg hr) (by linarith)
    rw [fl_neg] at this
    rwa [← neg_sub', ← neg_sub', abs_neg, abs_neg] at this

/-- Rounding is monotone. -/
theorem fl_mono {x y : ℝ} (h : x ≤ y) : fl x ≤ fl y := by
  by_contra hc
  push Not at hc
  rcases lt_or_ge x (fl y) with h1 | h1
  · have := fl_le (rep_fl y) h1.le; linarith
  · rcases le_or_gt (fl x) y with h2 | h2
    · have := le_fl (rep_fl x) h2; linarith
    · have h3 := fl_nearest x (rep_fl y)
      have h4 := fl_nearest y (rep_fl x)
      rw [abs_of_pos (by linarith), abs_of_nonpos (by linarith)] at h3
      rw [abs_of_nonpos (by linarith), abs_of_pos (by linarith)] at h4
      have : x = y := by linarith
      subst this; exact lt_irrefl _ hc

/-- The error is at most half a last place. -/
theorem fl_err (x : ℝ) : |fl x - x| ≤ 2 ^ lastPlace x / 2 := by
  have hp := two_zpow_pos (lastPlace x)
  have e1 : fl x - x = ((roundEven (x / 2 ^ lastPlace x) : ℝ) - x / 2 ^ lastPlace x) * 2 ^ lastPlace x := by
    unfold fl; field_simp
  rw [e1, abs_mul, abs_of_pos hp]
  have := mul_le_mul_of_nonneg_right (roundEven_err (x / 2 ^ lastPlace x)) hp.le
  linarith

/-- The last place of a number below `2^k`. -/
theorem lastPlace_le {x : ℝ} (hx : x ≠ 0) {k : ℤ} (hk : -125 ≤ k) (h : |x| < 2 ^ k) : lastPlace x ≤ k - 24 := by
  unfold lastPlace
  refine max_le (by omega) ?_
  have h1 := Int.zpow_log_le_self (b := 2) (by norm_num) (abs_pos.mpr hx)
  push_cast at h1
  have h2 : (2 : ℝ) ^ Int.log 2 |x| < 2 ^ k := lt_of_le_of_lt h1 h
  have := (zpow_lt_zpow_iff_right₀ (by norm_num : (1 : ℝ) < 2)).mp h2
  omega

/-- The last place of a number from `2^k` on. -/
theorem le_lastPlace {x : ℝ} {k : ℤ} (h : 2 ^ k ≤ |x|) : k - 23 ≤ lastPlace x := by
  have hx : 0 < |x| := lt_of_lt_of_le (two_zpow_pos k) h
  have h1 := Int.lt_zpow_succ_log_self (b := 2) (by norm_num) |x|
  push_cast at h1
  have h2 : (2 : ℝ) ^ k < 2 ^ (Int.log 2 |x| + 1) := lt_of_le_of_lt h h1
  have := (zpow_lt_zpow_iff_right₀ (by norm_num : (1 : ℝ) < 2)).mp h2
  exact le_trans (by omega) (le_max_right _ _)

/-- The error for a number below `2^k`. -/
theorem fl_err_lt {x : ℝ} {k : ℤ} (hk : -125 ≤ k) (h : |x| < 2 ^ k) : |fl x - x| ≤ 2 ^ (k - 25) := by
  by_cases hx : x = 0
  · subst hx; rw [fl_zero]; simp [(two_zpow_pos _).le]
  refine (fl_err x).trans ?_
  have h1 := lastPlace_le hx hk h
  have h2 : (2 : ℝ) ^ lastPlace x ≤ 2 ^ (k - 24) := zpow_le_zpow_right₀ (by norm_num) h1
  have h3 : (2 : ℝ) ^ (k - 24) = 2 ^ (k - 25) * 2 := by
    rw [show k - 24 = (k - 25) + 1 by ring, zpow_add₀ (by norm_num), zpow_one]
  linarith

/-- The same with the bound itself included. -/
theorem fl_err_le {x : ℝ} {k : ℤ} (hk : -125 ≤ k) (h : |x| ≤ 2 ^ k) : |fl x - x| ≤ 2 ^ (k - 25) := by
  rcases lt_or_eq_of_le h with h1 | h1
  · exact fl_err_lt hk h1
  · have : Rep x := by
      rcases abs_cases x with ⟨e, -⟩ | ⟨e, -⟩
      · rw [e] at h1; rw [h1]; exact rep_pow (by omega)
      · rw [e] at h1
        have : x = -2 ^ k := by linarith
        rw [this]; exact rep_neg (rep_pow (by omega))
    rw [fl_rep this]; simp [(two_zpow_pos _).le]

/-- Just above a power of two, up to half a last place, rounds down to it (ties to even). -/
theorem fl_le_pow {x : ℝ} {k : ℤ} (hk : -125 ≤ k) (h : x ≤ 2 ^ k + 2 ^ (k - 24)) : fl x ≤ 2 ^ k := by
  by_cases h0 : x ≤ 2 ^ k
  · exact fl_le (rep_pow (by omega)) h0
  push Not at h0
  have hkp := two_zpow_pos k
  have hx : x ≠ 0 := by linarith
  have hax : |x| = x := abs_of_pos (by linarith)
  have hlt : |x| < 2 ^ (k + 1) := by
    rw [hax, zpow_add₀ (by norm_num), zpow_one]
    have : (2 : ℝ) ^ (k - 24) < 2 ^ k := zpow_lt_zpow_right₀ (by norm_num) (by omega)
    linarith
  have h1 : lastPlace x = k - 23 :=
    le_antisymm (by have := lastPlace_le hx (k := k + 1) (by omega) hlt; omega) (le_lastPlace (by rw [hax]; exact h0.le))
  have hu := two_zpow_pos (k - 23)
  have e1 : (2 : ℝ) ^ k = 2 ^ 23 * 2 ^ (k - 23) := by
    rw [show ((2 : ℝ) ^ 23) = 2 ^ (23 : ℤ) by norm_num, ← zpow_add₀ (by norm_num)]; congr 1; ring
  have e2 : (2 : ℝ) ^ (k - 24) = 1 / 2 * 2 ^ (k - 23) := by
    rw [show k - 23 = (k - 24) + 1 by ring, zpow_add₀ (by norm_num), zpow_one]; ring
  unfold fl
  rw [h1]
  have h2 : roundEven (x / 2 ^ (k - 23)) ≤ 2 ^ 23 := by
    refine roundEven_half (by norm_num) ?_
    rw [div_le_iff₀ hu]
    push_cast
    rw [e1, e2] at h; linarith
  have h3 : (roundEven (x / 2 ^ (k - 23)) : ℝ) ≤ 2 ^ 23 := by exact_mod_cast h2
  rw [e1]
  exact mul_le_mul_of_nonneg_right h3 hu.le

end FastNoise.F32
