import Verif.Tile
import Mathlib.Tactic.Linarith
import Mathlib.Tactic.FieldSimp
import Mathlib.Tactic.NormNum
import Mathlib.Tactic.Positivity

/-! # C18: the tileable image wraps -/

namespace FastNoise.Tile

open Real

theorem angle_turn {c : ℝ} (hc : c ≠ 0) {size : ℕ} (hs : 0 < size) (x : ℕ) :
    ((x + size : ℕ) : ℝ) * mul c size = x * mul c size + 1 / c := by
  have : (size : ℝ) ≠ 0 := by exact_mod_cast hs.ne'
  unfold mul sizePi
  push_cast
  field_simp

/-- **C18** (idealised constant) If the constant were exactly 1/(2π), going once around would return to exactly the same
point: column `x + xSize` samples the same position as column `x`, for every size, step and column. -/
theorem C18_exact_constant_wraps (size : ℕ) (hs : 0 < size) (step : ℝ) (x : ℕ) :
    point (1 / (2 * π)) size step (x + size) = point (1 / (2 * π)) size step x := by
  have hc : (1 / (2 * π) : ℝ) ≠ 0 := by positivity
  unfold point
  rw [angle_turn hc hs, one_div_one_div, cos_add_two_pi, sin_add_two_pi]

/-- **C18** The phase of one full image width under the code's constant: it exceeds 2π by between 2.53e-7 and 2.54e-7 radians (the seam of C18_seam_not_exact). -/
theorem C18_full_turn : 2.53e-7 < 1 / pi2Recip - 2 * π ∧ 1 / pi2Recip - 2 * π < 2.54e-7 := by
  have h1 := pi_gt_d20
  have h2 := pi_lt_d20
  unfold pi2Recip
  constructor <;> norm_num <;> norm_num at h1 h2 <;> linarith

/-- **C18** (partial: with the constant of the code the image closes only up to a phase error of 2.6e-7 radians, see
`C18_seam_not_exact`) Column `x + xSize` samples, on both coordinates of the axis, a position within
`2.6e-7 * |xFreq|` of column `x`. -/
theorem C18_wraps_partial (size : ℕ) (hs : 0 < size) (step : ℝ) (x : ℕ) :
    |(point pi2Recip size step (x + size)).1 - (point pi2Recip size step x).1| ≤ 2.6e-7 * |freq pi2Recip size step| ∧
    |(point pi2Recip size step (x + size)).2 - (point pi2Recip size step x).2| ≤ 2.6e-7 * |freq pi2Recip size step| := by
  have hc : pi2Recip ≠ 0 := by unfold pi2Recip; norm_num
  obtain ⟨e1, e2⟩ := C18_full_turn
  replace e1 : 0 < 1 / pi2Recip - 2 * π := lt_trans (by norm_num) e1
  replace e2 : 1 / pi2Recip - 2 * π < 2.6e-7 := lt_trans e2 (by norm_num)
  have ha := angle_turn hc hs x
  generalize hA : (x : ℝ) * mul pi2Recip size = A at ha
  have hcos : |cos (A + 1 / pi2Recip) - cos A| ≤ 2.6e-7 := by
    have : cos A = cos (A + 2 * π) := (cos_add_two_pi A).symm
    rw [this]
    refine le_trans (abs_cos_sub_cos_le _ _) ?_
    rw [show A + 1 / pi2Recip - (A + 2 * π) = 1 / pi2Recip - 2 * π by ring, abs_of_pos e1]
    exact e2.le
  have hsin : |sin (A + 1 / pi2Recip) - sin A| ≤ 2.6e-7 := by
    have : sin A = sin (A + 2 * π) := (sin_add_two_pi A).symm
    rw [this]
    refine le_trans (abs_sin_sub_sin_le _ _) ?_
    rw [show A + 1 / pi2Recip - (A + 2 * π) = 1 / pi2Recip - 2 * π by ring, abs_of_pos e1]
    exact e2.le
  unfold point
  rw [ha, hA]
  constructor
  · rw [← sub_mul, abs_mul]; exact mul_le_mul_of_nonneg_right hcos (abs_nonneg _)
  · rw [← sub_mul, abs_mul]; exact mul_le_mul_of_nonneg_right hsin (abs_nonneg _)

/-- The full claim of C18 fails for the code's constant: the point after a full turn is never the starting point. -/
theorem C18_seam_not_exact (size : ℕ) (hs : 0 < size) (step : ℝ) (hstep : step ≠ 0) :
    point pi2Recip size step size ≠ point pi2Recip size step 0 := by
  have hc : pi2Recip ≠ 0 := by unfold pi2Recip; norm_num
  have hs' : (size : ℝ) ≠ 0 := by exact_mod_cast hs.ne'
  obtain ⟨e1, e2⟩ := C18_full_turn
  replace e1 : 0 < 1 / pi2Recip - 2 * π := lt_trans (by norm_num) e1
  replace e2 : 1 / pi2Recip - 2 * π < 2.6e-7 := lt_trans e2 (by norm_num)
  intro h
  have h2 := congrArg Prod.snd h
  have ha := angle_turn hc hs 0
  simp only [Nat.cast_zero, zero_mul, zero_add] at ha
  simp only [point, ha, Nat.cast_zero, zero_mul, sin_zero] at h2
  have hf : freq pi2Recip size step ≠ 0 := mul_ne_zero (mul_ne_zero hs' hc) hstep
  have hsin : sin (1 / pi2Recip) = 0 := by
    rcases mul_eq_zero.mp h2 with h | h
    · exact h
    · exact absurd h hf
  have h3 : sin (1 / pi2Recip - 2 * π) = sin (1 / pi2Recip) := sin_sub_two_pi _
  have h4 : 0 < sin (1 / pi2Recip - 2 * π) :=
    sin_pos_of_pos_of_lt_pi e1 (lt_trans e2 (lt_trans (by norm_num) pi_gt_three))
  rw [h3, hsin] at h4
  exact lt_irrefl _ h4

/-- **C18** Neighbouring columns are equally spaced: the squared distance between consecutive sample points does not
depend on the column, for every constant, size and step. -/
theorem C18_equal_spacing (c : ℝ) (size : ℕ) (step : ℝ) (x : ℕ) :
    ((point c size step (x + 1)).1 - (point c size step x).1) ^ 2 +
      ((point c size step (x + 1)).2 - (point c size step x).2) ^ 2 =
    ((point c size step 1).1 - (point c size step 0).1) ^ 2 +
      ((point c size step 1).2 - (point c size step 0).2) ^ 2 := by
  unfold point
  simp only [Nat.cast_zero, zero_mul, cos_zero, sin_zero, Nat.cast_one, one_mul]
  push_cast
  rw [add_mul, one_mul, cos_add, sin_add]
  generalize (x : ℝ) * mul c size = A
  generalize mul c size = B
  generalize freq c size step = R
  have h1 := sin_sq_add_cos_sq A
  have h2 := sin_sq_add_cos_sq B
  generalize cos A = a at *
  generalize sin A = b at *
  generalize cos B = p at *
  generalize sin B = q at *
  have e1 : b ^ 2 = 1 - a ^ 2 := by linarith
  have e2 : q ^ 2 = 1 - p ^ 2 := by linarith
  ring_nf
  simp only [e1, e2]
  ring

/-- **C18** The arc length between neighbouring columns is exactly the requested step size. -/
theorem C18_arc_is_step (c : ℝ) (hc : c ≠ 0) (size : ℕ) (hs : 0 < size) (step : ℝ) :
    mul c size * freq c size step = step := by
  have : (size : ℝ) ≠ 0 := by exact_mod_cast hs.ne'
  unfold mul freq sizePi
  field_simp

/-- **C18** All sample points of an axis lie on the circle of radius `freq` (so the image lives on a torus). -/
theorem C18_on_circle (c : ℝ) (size : ℕ) (step : ℝ) (x : ℕ) :
    (point c size step x).1 ^ 2 + (point c size step x).2 ^ 2 = freq c size step ^ 2 := by
  unfold point
  simp only [mul_pow]
  rw [← add_mul, cos_sq_add_sin_sq, one_mul]

/-- Non-vacuity: a 64 sample axis meets the hypotheses. -/
example : 0 < 64 ∧ (1 : ℝ) ≠ 0 ∧ pi2Recip ≠ 0 := ⟨by omega, one_ne_zero, by unfold pi2Recip; norm_num⟩

end FastNoise.Tile
