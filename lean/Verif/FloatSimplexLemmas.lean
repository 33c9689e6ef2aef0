import Verif.FloatSimplex
import Verif.FloatPerlinLemmas
import Verif.FloatCellularLemmas
import Verif.GradientLemmas
import Verif.SimplexRaw
/-! # How far the binary32 Simplex noise is from the exact one -/
namespace FastNoise.F32
open FastNoise.Hash FastNoise.Num FastNoise.Basic FastNoise.Lattice
open FastNoise.Gradient (Feat)
open FastNoise.Simplex (maskedAddI invMaskedAddI kUnskew kSkew pow4)

noncomputable section

theorem rndP {x : ℝ} {j : ℕ} (hj : j ≤ 4) (h : |x| ≤ 1 / 2 ^ j) : |fl x - x| ≤ U / 2 ^ j := by
  have := fl_err_le (x := x) (k := -j) (by omega) (by rw [zpow_neg, zpow_natCast]; rw [one_div] at h; exact h)
  refine this.trans (le_of_eq ?_)
  rw [show -(j : ℤ) - 25 = -(j : ℤ) + -25 by ring, zpow_add₀ (by norm_num), zpow_neg, zpow_natCast]
  unfold U; norm_num; ring

theorem rndh {x : ℝ} (h : |x| ≤ 1 / 2) : |fl x - x| ≤ U / 2 := by
  have := rndP (x := x) (j := 1) (by norm_num) (by norm_num; norm_num at h; exact h)
  simpa using this
theorem rndq {x : ℝ} (h : |x| ≤ 1 / 4) : |fl x - x| ≤ U / 4 := by
  have := rndP (x := x) (j := 2) (by norm_num) (by norm_num; norm_num at h; exact h)
  norm_num at this; exact this
theorem rnde {x : ℝ} (h : |x| ≤ 1 / 8) : |fl x - x| ≤ U / 8 := by
  have := rndP (x := x) (j := 3) (by norm_num) (by norm_num; norm_num at h; exact h)
  norm_num at this; exact this

theorem sqrt3_bounds : (1.73205080756 : ℝ) < √3 ∧ √3 < 1.73205080757 := by
  constructor
  · apply Real.lt_sqrt_of_sq_lt; norm_num
  · rw [Real.sqrt_lt' (by norm_num)]; norm_num

theorem kUnskew_eq : kUnskew 2 = (√3 - 3) / 6 := by
  have h : √3 * √3 = (3 : ℝ) := Real.mul_self_sqrt (by norm_num)
  have h0 : √3 + 3 ≠ 0 := by positivity
  unfold kUnskew; rw [if_pos rfl, div_eq_div_iff h0 (by norm_num)]; nlinarith
theorem kSkew_eq : kSkew 2 = (√3 - 1) / 2 := by
  have h : √3 * √3 = (3 : ℝ) := Real.mul_self_sqrt (by norm_num)
  have h0 : √3 + 1 ≠ 0 := by positivity
  unfold kSkew; rw [if_pos rfl, div_eq_div_iff h0 (by norm_num)]; nlinarith

theorem kUnskew_bounds : -0.21133 ≤ kUnskew 2 ∧ kUnskew 2 ≤ -0.21132 := by
  obtain ⟨h1, h2⟩ := sqrt3_bounds
  rw [kUnskew_eq]; constructor <;> linarith

theorem kUnskewF_err : |kUnskew2F - kUnskew 2| ≤ U / 4 := by
  obtain ⟨h1, h2⟩ := sqrt3_bounds
  rw [kUnskew_eq, abs_le]; unfold kUnskew2F U; constructor <;> norm_num <;> linarith
theorem kStep1F_err : |kStep1F - (kUnskew 2 + 1)| ≤ U / 4 := by
  obtain ⟨h1, h2⟩ := sqrt3_bounds
  rw [kUnskew_eq, abs_le]; unfold kStep1F U; constructor <;> norm_num <;> linarith
theorem kStep2F_err : |kStep2F - (kUnskew 2 * 2 + 1)| ≤ U / 2 := by
  obtain ⟨h1, h2⟩ := sqrt3_bounds
  rw [kUnskew_eq, abs_le]; unfold kStep2F U; constructor <;> norm_num <;> linarith
theorem kSkewF_err : |kSkew2F - kSkew 2| ≤ U / 2 := by
  obtain ⟨h1, h2⟩ := sqrt3_bounds
  rw [kSkew_eq, abs_le]; unfold kSkew2F U; constructor <;> norm_num <;> linarith
theorem kFalloffMulF_err : |kFalloffMulF - (-(2 / 3) * (3 + √3))| ≤ U := by
  obtain ⟨h1, h2⟩ := sqrt3_bounds
  rw [abs_le]; unfold kFalloffMulF U; constructor <;> norm_num <;> linarith
theorem kFalloffAddF_err : |kFalloffAddF - (-2 / 3)| ≤ U := by
  rw [abs_le]; unfold kFalloffAddF U; constructor <;> norm_num

/-! ## Offsets from the corners -/

/-- `unskewDelta` -/
theorem delta_err {a b : ℝ} (a0 : 0 ≤ a) (a1 : a ≤ 1) (b0 : 0 ≤ b) (b1 : b ≤ 1) :
    |mul kUnskew2F (add a b) - kUnskew 2 * (a + b)| ≤ 1.5 * U ∧ |mul kUnskew2F (add a b)| ≤ 0.43 := by
  have hu := U_pos
  have hs := U_small
  obtain ⟨k1, k2⟩ := kUnskew_bounds
  have ke := kUnskewF_err
  have r := abs_le.mp (rnd2 (x := a + b) (by rw [abs_le]; constructor <;> linarith))
  unfold mul add
  obtain ⟨s, hs'⟩ : ∃ s, fl (a + b) = s := ⟨_, rfl⟩
  rw [hs'] at r ⊢
  have sb : |s| ≤ 2.001 := by rw [abs_le]; constructor <;> linarith
  have kb : |kUnskew 2| ≤ 0.21133 := by rw [abs_le]; constructor <;> linarith
  have e1 : |kUnskew2F * s - kUnskew 2 * (a + b)| ≤ 0.93 * U := by
    have e : kUnskew2F * s - kUnskew 2 * (a + b) = (kUnskew2F - kUnskew 2) * s + kUnskew 2 * (s - (a + b)) := by ring
    rw [e]
    refine (abs_add_le _ _).trans ?_
    rw [abs_mul, abs_mul]
    have m1 := mul_le_mul ke sb (abs_nonneg _) (by linarith)
    have m2 := mul_le_mul kb (abs_le.mpr r) (abs_nonneg _) (by norm_num)
    linarith
  have e1' := abs_le.mp e1
  have kab : |kUnskew 2 * (a + b)| ≤ 0.42266 := by
    rw [abs_mul]
    have : |a + b| ≤ 2 := by rw [abs_le]; constructor <;> linarith
    have := mul_le_mul kb this (abs_nonneg _) (by norm_num)
    linarith
  have kab' := abs_le.mp kab
  have r2 := abs_le.mp (rndh (x := kUnskew2F * s) (by rw [abs_le]; constructor <;> linarith))
  constructor <;> rw [abs_le] <;> constructor <;> linarith

/-- `dx0` -/
theorem dx0_err {a ud D : ℝ} (h : |ud - D| ≤ 1.5 * U) (hb : |a + D| ≤ 0.79) : |add a ud - (a + D)| ≤ 2.5 * U := by
  have hu := U_pos
  have hs := U_small
  have h' := abs_le.mp h
  have hb' := abs_le.mp hb
  have r := abs_le.mp (rnd1 (x := a + ud) (by rw [abs_le]; constructor <;> linarith))
  unfold add; rw [abs_le]; constructor <;> linarith

/-- `dx1`, `dy1`: `m` tells whether one is added first. -/
theorem dx1_err {x X : ℝ} (m : Bool) (h : |x - X| ≤ 2.5 * U) (hX : |X| ≤ 0.79) (hb : |(if m then X + 1 else X) - (kUnskew 2 + 1)| ≤ 0.79) :
    |sub (maskedIncF m x) kStep1F - ((if m then X + 1 else X) - (kUnskew 2 + 1))| ≤ 6 * U := by
  have hu := U_pos
  have hs := U_small
  have h' := abs_le.mp h
  have hX' := abs_le.mp hX
  have hb' := abs_le.mp hb
  have ke := abs_le.mp kStep1F_err
  unfold maskedIncF sub add
  cases m
  · simp only [Bool.false_eq_true, if_false] at *
    have r := abs_le.mp (rnd1 (x := x - kStep1F) (by rw [abs_le]; constructor <;> linarith))
    rw [abs_le]; constructor <;> linarith
  · simp only [if_true] at *
    have r1 := abs_le.mp (rnd2 (x := x + 1) (by rw [abs_le]; constructor <;> linarith))
    have r := abs_le.mp (rnd1 (x := fl (x + 1) - kStep1F) (by rw [abs_le]; constructor <;> linarith))
    rw [abs_le]; constructor <;> linarith

/-- `dx2` -/
theorem dx2_err {x X : ℝ} (h : |x - X| ≤ 2.5 * U) (hb : |X - (kUnskew 2 * 2 + 1)| ≤ 0.79) :
    |sub x kStep2F - (X - (kUnskew 2 * 2 + 1))| ≤ 6 * U := by
  have hu := U_pos
  have hs := U_small
  have h' := abs_le.mp h
  have hb' := abs_le.mp hb
  have ke := abs_le.mp kStep2F_err
  unfold sub
  have r := abs_le.mp (rnd1 (x := x - kStep2F) (by rw [abs_le]; constructor <;> linarith))
  rw [abs_le]; constructor <;> linarith

/-! ## Falloffs -/

theorem sq_err {x X α : ℝ} (h : |x - X| ≤ α) (hX : |X| ≤ 0.79) (hx : |x| ≤ 0.8) : |x * x - X * X| ≤ 1.59 * α ∧ 0 ≤ x * x ∧ x * x ≤ 0.64 := by
  refine ⟨?_, mul_self_nonneg x, ?_⟩
  · have e : x * x - X * X = (x - X) * (x + X) := by ring
    rw [e, abs_mul]
    have h2 : |x + X| ≤ 1.59 := (abs_add_le _ _).trans (by linarith)
    have := mul_le_mul h h2 (abs_nonneg _) ((abs_nonneg _).trans h)
    linarith
  · have := abs_mul_abs_self x
    nlinarith [abs_nonneg x]

/-- `FNMulAdd( dx, dx, FNMulAdd( dy, dy, 0.5 ) )` -/
theorem falloff_err (L : Level) {x y X Y α : ℝ} (hx : |x - X| ≤ α) (hy : |y - Y| ≤ α) (hα : α ≤ 6 * U) (hX : |X| ≤ 0.79) (hY : |Y| ≤ 0.79) :
    |fnma L x x (fnma L y y 0.5) - (1 / 2 - X * X - Y * Y)| ≤ 4 * U + 3.18 * α := by
  have hu := U_pos
  have hs := U_small
  have ax : |x| ≤ 0.8 := by have := abs_le.mp hx; have := abs_le.mp hX; rw [abs_le]; constructor <;> linarith
  have ay : |y| ≤ 0.8 := by have := abs_le.mp hy; have := abs_le.mp hY; rw [abs_le]; constructor <;> linarith
  obtain ⟨ex, x0, x1⟩ := sq_err hx hX ax
  obtain ⟨ey, y0, y1⟩ := sq_err hy hY ay
  have ex' := abs_le.mp ex
  have ey' := abs_le.mp ey
  have h5 : (0.5 : ℝ) = 1 / 2 := by norm_num
  rw [h5]
  unfold fnma
  split
  · have r1 := abs_le.mp (rnd1 (x := -(y * y) + 1 / 2) (by rw [abs_le]; constructor <;> linarith))
    have r2 := abs_le.mp (rnd1 (x := -(x * x) + fl (-(y * y) + 1 / 2)) (by rw [abs_le]; constructor <;> linarith))
    rw [abs_le]; constructor <;> linarith
  · unfold sub mul
    have q1 := abs_le.mp (rnd1 (x := y * y) (by rw [abs_le]; constructor <;> linarith))
    have q2 := abs_le.mp (rnd1 (x := x * x) (by rw [abs_le]; constructor <;> linarith))
    have r1 := abs_le.mp (rnd1 (x := 1 / 2 - fl (y * y)) (by rw [abs_le]; constructor <;> linarith))
    have r2 := abs_le.mp (rnd1 (x := fl (1 / 2 - fl (y * y)) - fl (x * x)) (by rw [abs_le]; constructor <;> linarith))
    rw [abs_le]; constructor <;> linarith

/-- `falloff2` -/
theorem falloff2_err (L : Level) {f F ud s : ℝ} (hf : |f - F| ≤ 12 * U) (hud : |ud - kUnskew 2 * s| ≤ 1.5 * U) (hb : |ud| ≤ 0.43) (s0 : 0 ≤ s) (s2 : s ≤ 2)
    (hF : -0.75 ≤ F ∧ F ≤ 1 / 2) (hF2 : -0.75 ≤ F + (2 / 3 * s - 2 / 3) ∧ F + (2 / 3 * s - 2 / 3) ≤ 1 / 2) :
    |add f (fma L ud kFalloffMulF kFalloffAddF) - (F + (2 / 3 * s - 2 / 3))| ≤ 24 * U := by
  have hu := U_pos
  have hs := U_small
  obtain ⟨q1, q2⟩ := sqrt3_bounds
  have km := kFalloffMulF_err
  have ka := abs_le.mp kFalloffAddF_err
  have hprod : kUnskew 2 * (-(2 / 3) * (3 + √3)) = 2 / 3 := by
    have h : √3 * √3 = (3 : ℝ) := Real.mul_self_sqrt (by norm_num)
    rw [kUnskew_eq]; nlinarith
  have pe : |ud * kFalloffMulF - 2 / 3 * s| ≤ 5.3 * U := by
    have e : ud * kFalloffMulF - 2 / 3 * s = ud * (kFalloffMulF - (-(2 / 3) * (3 + √3))) + (ud - kUnskew 2 * s) * (-(2 / 3) * (3 + √3)) := by
      linear_combination s * hprod
    rw [e]
    refine (abs_add_le _ _).trans ?_
    rw [abs_mul, abs_mul]
    have b : |-(2 / 3) * (3 + √3)| ≤ 3.16 := by rw [abs_le]; constructor <;> linarith
    have m1 := mul_le_mul hb km (abs_nonneg _) (by norm_num)
    have m2 := mul_le_mul hud b (abs_nonneg _) (by linarith)
    linarith
  have pe' := abs_le.mp pe
  have hf' := abs_le.mp hf
  unfold fma add mul
  split
  · have r1 := abs_le.mp (rnd1 (x := ud * kFalloffMulF + kFalloffAddF) (by rw [abs_le]; constructor <;> linarith))
    have r2 := abs_le.mp (rnd1 (x := f + fl (ud * kFalloffMulF + kFalloffAddF)) (by rw [abs_le]; constructor <;> linarith))
    rw [abs_le]; constructor <;> linarith
  · have r0 := abs_le.mp (rnd2 (x := ud * kFalloffMulF) (by rw [abs_le]; constructor <;> linarith))
    have r1 := abs_le.mp (rnd1 (x := fl (ud * kFalloffMulF) + kFalloffAddF) (by rw [abs_le]; constructor <;> linarith))
    have r2 := abs_le.mp (rnd1 (x := f + fl (fl (ud * kFalloffMulF) + kFalloffAddF)) (by rw [abs_le]; constructor <;> linarith))
    rw [abs_le]; constructor <;> linarith

/-! ## One corner -/

/-- Every 2D gradient has the coordinates 1 and 1 + √2, up to order and sign. -/
theorem dot_form (ft : Feat) (h : I32) : ∃ p q : ℝ, p ^ 2 + q ^ 2 ≤ 6.83 ∧ |p| + |q| ≤ 3.415 ∧ ∀ x y, Gradient.dotPerlin2 ft h x y = p * x + q * y := by
  have s2 : √2 * √2 = (2 : ℝ) := Real.mul_self_sqrt (by norm_num)
  have s0 : (0 : ℝ) ≤ √2 := Real.sqrt_nonneg _
  have s1 : √2 ≤ (1.4143 : ℝ) := Real.sqrt_le_iff.mpr ⟨by norm_num, by norm_num⟩
  refine ⟨(Gradient.perlin2 (Gradient.low 3 h)).1, (Gradient.perlin2 (Gradient.low 3 h)).2, ?_, ?_, fun x y => by rw [Gradient.dotPerlin2_eq]; rfl⟩
  · generalize Gradient.low 3 h = i
    fin_cases i <;> simp [Gradient.perlin2] <;> nlinarith
  · generalize Gradient.low 3 h = i
    have ha : |1 + √2| = 1 + √2 := abs_of_nonneg (by linarith)
    have hb : |-(1 + √2)| = 1 + √2 := by rw [abs_neg, ha]
    have hc : |-√2 + -1| = 1 + √2 := by rw [show -√2 + -1 = -(1 + √2) by ring, hb]
    have hd : |-1 + -√2| = 1 + √2 := by rw [show -1 + -√2 = -(1 + √2) by ring, hb]
    fin_cases i <;> simp [Gradient.perlin2, ha, hb, hc, hd] <;> linarith

theorem cubic_le {t : ℝ} (h0 : 0 ≤ t) (h1 : t ≤ 1 / 2) : t ^ 2 * (1 / 2 - t) ≤ 1 / 54 := by
  nlinarith [mul_nonneg (by linarith : (0 : ℝ) ≤ t + 1 / 6) (sq_nonneg (t - 1 / 3))]

theorem quart_le {t T E : ℝ} (t0 : 0 ≤ t) (T0 : 0 ≤ T) (T1 : T ≤ 1 / 2) (hE : 0 ≤ E) (hE1 : E ≤ 0.00001) (h : t ≤ T + E) :
    (t * t + T * T) * (t + T) ≤ 4 * T ^ 3 + 2 * E := by
  have h1 : t * t ≤ (T + E) * (T + E) := mul_le_mul h h t0 (by linarith)
  have h2 : (t * t + T * T) * (t + T) ≤ ((T + E) * (T + E) + T * T) * (T + E + T) :=
    mul_le_mul (by linarith) (by linarith) (by linarith) (by positivity)
  have e : ((T + E) * (T + E) + T * T) * (T + E + T) = 4 * T ^ 3 + (6 * (T * T) + 4 * (T * E) + E * E) * E := by ring
  have a : T * T ≤ 1 / 4 := by nlinarith
  have b : T * E ≤ 0.00001 := by nlinarith
  have c : E * E ≤ 0.00001 := by nlinarith
  have d := mul_le_mul_of_nonneg_right (by linarith : 6 * (T * T) + 4 * (T * E) + E * E ≤ 2) hE
  linarith

set_option maxHeartbeats 1000000 in
/-- The ramp of a corner times its falloff. -/
theorem vertex_err (ft : Feat) (L : Level) (h : I32) {x y X Y f : ℝ} (rx : Rep x) (ry : Rep y) (hx : |x - X| ≤ 6 * U) (hy : |y - Y| ≤ 6 * U) (hX : |X| ≤ 0.79) (hY : |Y| ≤ 0.79)
    (hf : |f - (1 / 2 - X * X - Y * Y)| ≤ 24 * U) :
    |dotPerlin2 ft L h x y * pow4F (max f 0) - Gradient.dotPerlin2 ft h X Y * pow4 (max (1 / 2 - X * X - Y * Y) 0)| ≤ 13 * U ∧
      |dotPerlin2 ft L h x y * pow4F (max f 0)| ≤ 0.18 ∧ |Gradient.dotPerlin2 ft h X Y * pow4 (max (1 / 2 - X * X - Y * Y) 0)| ≤ 0.17 := by
  have hu := U_pos
  have hs := U_small
  have ax : |x| ≤ 0.8 := by have := abs_le.mp hx; have := abs_le.mp hX; rw [abs_le]; constructor <;> linarith
  have ay : |y| ≤ 0.8 := by have := abs_le.mp hy; have := abs_le.mp hY; rw [abs_le]; constructor <;> linarith
  have ge := dotPerlin2_err ft L h (x := x) (y := y) (X := x) (Y := y) ⟨rx, by linarith, by linarith, by simp [hu.le]⟩ ⟨ry, by linarith, by linarith, by simp [hu.le]⟩
  obtain ⟨p, q, hpq, hpq1, hdot⟩ := dot_form ft h
  rw [hdot] at ge
  rw [hdot]
  obtain ⟨g, hg⟩ : ∃ g, dotPerlin2 ft L h x y = g := ⟨_, rfl⟩
  rw [hg] at ge ⊢
  obtain ⟨G, hG⟩ : ∃ G, p * X + q * Y = G := ⟨_, rfl⟩
  rw [hG]
  -- the ramp
  have gG : |g - G| ≤ 44 * U := by
    have e : g - G = (g - (p * x + q * y)) + (p * (x - X) + q * (y - Y)) := by rw [← hG]; ring
    rw [e]
    refine (abs_add_le _ _).trans ?_
    have : |p * (x - X) + q * (y - Y)| ≤ (|p| + |q|) * (6 * U) := by
      refine (abs_add_le _ _).trans ?_
      rw [abs_mul, abs_mul, add_mul]
      exact add_le_add (mul_le_mul_of_nonneg_left hx (abs_nonneg _)) (mul_le_mul_of_nonneg_left hy (abs_nonneg _))
    have m := mul_le_mul_of_nonneg_right hpq1 (by linarith : 0 ≤ 6 * U)
    linarith
  have Gb : |G| ≤ 2.7 := by
    rw [← hG]
    refine (abs_add_le _ _).trans ?_
    rw [abs_mul, abs_mul]
    have m1 := mul_le_mul_of_nonneg_left hX (abs_nonneg p)
    have m2 := mul_le_mul_of_nonneg_left hY (abs_nonneg q)
    linarith
  have G2 : G ^ 2 ≤ 6.83 * (X * X + Y * Y) := by
    have : G ^ 2 ≤ (p ^ 2 + q ^ 2) * (X * X + Y * Y) := by rw [← hG]; nlinarith [sq_nonneg (p * Y - q * X)]
    refine this.trans (mul_le_mul_of_nonneg_right hpq ?_)
    nlinarith [mul_self_nonneg X, mul_self_nonneg Y]
  -- the falloff
  obtain ⟨F, hF⟩ : ∃ F, 1 / 2 - X * X - Y * Y = F := ⟨_, rfl⟩
  have hF2 : F ≤ 1 / 2 := by rw [← hF]; nlinarith [mul_self_nonneg X, mul_self_nonneg Y]
  rw [hF] at hf ⊢
  have te : |max f 0 - max F 0| ≤ 24 * U := (abs_max_sub_max_le_abs f F 0).trans hf
  have GT : (G * max F 0) ^ 2 ≤ 0.36 ^ 2 := by
    rcases le_total F 0 with hn | hp
    · rw [max_eq_right hn]; norm_num
    · rw [max_eq_left hp]
      have hc := cubic_le hp hF2
      have e : X * X + Y * Y = 1 / 2 - F := by rw [← hF]; ring
      rw [e] at G2
      have : (G * F) ^ 2 ≤ 6.83 * (F ^ 2 * (1 / 2 - F)) := by
        have := mul_le_mul_of_nonneg_right G2 (sq_nonneg F)
        linarith [this, mul_pow G F 2]
      linarith
  have T0 : 0 ≤ max F 0 := le_max_right _ _
  have T1 : max F 0 ≤ 1 / 2 := max_le hF2 (by norm_num)
  have t0 : 0 ≤ max f 0 := le_max_right _ _
  generalize max F 0 = T at *
  generalize max f 0 = t at *
  have GT' : |G * T| ≤ 0.36 := abs_le_of_sq_le_sq GT (by norm_num)
  have te' := abs_le.mp te
  have t1 : t ≤ 0.5001 := by linarith
  unfold pow4F pow4 mul
  have tt : t * t ≤ 0.2502 := by nlinarith
  have tt0 : 0 ≤ t * t := mul_self_nonneg t
  have r1 := abs_le.mp (rndh (x := t * t) (by rw [abs_le]; constructor <;> linarith))
  obtain ⟨w, hw⟩ : ∃ w, fl (t * t) = w := ⟨_, rfl⟩
  rw [hw] at r1 ⊢
  have w0 : 0 ≤ w := by rw [← hw]; exact le_fl rep_zero tt0
  have w1 : w ≤ 0.2503 := by linarith
  have ww : w * w ≤ 0.0627 := by nlinarith
  have ww0 : 0 ≤ w * w := mul_self_nonneg w
  have r2 := abs_le.mp (rnde (x := w * w) (by rw [abs_le]; constructor <;> linarith))
  obtain ⟨v, hv⟩ : ∃ v, fl (w * w) = v := ⟨_, rfl⟩
  rw [hv] at r2 ⊢
  have v0 : 0 ≤ v := by rw [← hv]; exact le_fl rep_zero ww0
  have v1 : v ≤ 0.0628 := by linarith
  -- the fourth power
  have e1 : |w * w - t * t * (t * t)| ≤ 0.3 * U := by
    have e : w * w - t * t * (t * t) = (w - t * t) * (w + t * t) := by ring
    rw [e, abs_mul, abs_of_nonneg (by linarith : 0 ≤ w + t * t)]
    have := mul_le_mul (abs_le.mpr r1) (by linarith : w + t * t ≤ 0.51) (by linarith) (by linarith)
    linarith
  have e1' := abs_le.mp e1
  have vt : |v - t * t * (t * t)| ≤ 0.43 * U := by rw [abs_le]; constructor <;> linarith
  have e2 : |t * t * (t * t) - T * T * (T * T)| ≤ |t - T| * (4 * T ^ 3 + 2 * (24 * U)) := by
    have e : t * t * (t * t) - T * T * (T * T) = (t - T) * ((t * t + T * T) * (t + T)) := by ring
    rw [e, abs_mul]
    refine mul_le_mul_of_nonneg_left ?_ (abs_nonneg _)
    rw [abs_of_nonneg (by positivity)]
    have ht : t ≤ T + 24 * U := by linarith
    exact quart_le t0 T0 T1 (by linarith) (by linarith) ht
  have T3 : |G| * T ^ 3 ≤ 0.09 := by
    have e : |G| * T ^ 3 = |G * T| * T ^ 2 := by rw [abs_mul, abs_of_nonneg T0]; ring
    rw [e]
    have : T ^ 2 ≤ 1 / 4 := by nlinarith
    have := mul_le_mul GT' this (by positivity) (by norm_num)
    linarith
  have main : |G| * |v - T * T * (T * T)| ≤ 10 * U := by
    have s1 : |v - T * T * (T * T)| ≤ 0.43 * U + 24 * U * (4 * T ^ 3 + 2 * (24 * U)) := by
      have e : v - T * T * (T * T) = (v - t * t * (t * t)) + (t * t * (t * t) - T * T * (T * T)) := by ring
      rw [e]
      refine (abs_add_le _ _).trans (add_le_add vt (e2.trans ?_))
      exact mul_le_mul_of_nonneg_right te (by positivity)
    have s2 := mul_le_mul_of_nonneg_left s1 (abs_nonneg G)
    have e : |G| * (0.43 * U + 24 * U * (4 * T ^ 3 + 2 * (24 * U))) = 0.43 * U * |G| + 96 * U * (|G| * T ^ 3) + 1152 * U * U * |G| := by ring
    rw [e] at s2
    have m1 := mul_le_mul_of_nonneg_left Gb (by linarith : 0 ≤ 0.43 * U)
    have m2 := mul_le_mul_of_nonneg_left T3 (by linarith : 0 ≤ 96 * U)
    have m3 := mul_le_mul_of_nonneg_left Gb (by positivity : 0 ≤ 1152 * U * U)
    have m4 := mul_le_mul_of_nonneg_left hs (by linarith : 0 ≤ 1152 * 2.7 * U)
    linarith
  refine ⟨?_, ?_, ?_⟩
  · have e : g * v - G * (T * T * (T * T)) = (g - G) * v + G * (v - T * T * (T * T)) := by ring
    rw [e]
    refine (abs_add_le _ _).trans ?_
    rw [abs_mul, abs_mul, abs_of_nonneg v0]
    have m := mul_le_mul gG v1 v0 (by linarith)
    linarith
  · rw [abs_mul, abs_of_nonneg v0]
    have gb : |g| ≤ 2.71 := by
      have := abs_le.mp gG; have := abs_le.mp Gb
      rw [abs_le]; constructor <;> linarith
    have := mul_le_mul gb v1 v0 (by norm_num)
    linarith
  · have TT : T * T * (T * T) ≤ 0.0625 := by
      have h1 : T * T ≤ 0.25 := by nlinarith
      nlinarith [mul_self_nonneg T]
    have TT0 : 0 ≤ T * T * (T * T) := by positivity
    rw [abs_mul, abs_of_nonneg TT0]
    have := mul_le_mul Gb TT TT0 (by norm_num)
    linarith

/-- The sum of the three corners. -/
theorem sum3_err (L : Level) {g0 t0 g1 t1 g2 t2 C0 C1 C2 : ℝ} (h0 : |g0 * t0 - C0| ≤ 13 * U) (h1 : |g1 * t1 - C1| ≤ 13 * U) (h2 : |g2 * t2 - C2| ≤ 13 * U)
    (b0 : |g0 * t0| ≤ 0.18) (b1 : |g1 * t1| ≤ 0.18) (b2 : |g2 * t2| ≤ 0.18) :
    |fma L g0 t0 (fma L g1 t1 (mul g2 t2)) - (C0 + (C1 + C2))| ≤ 42 * U := by
  have hu := U_pos
  have hs := U_small
  have h0' := abs_le.mp h0
  have h1' := abs_le.mp h1
  have h2' := abs_le.mp h2
  have b0' := abs_le.mp b0
  have b1' := abs_le.mp b1
  have b2' := abs_le.mp b2
  unfold fma add mul
  have r2 := abs_le.mp (rndq (x := g2 * t2) (by rw [abs_le]; constructor <;> linarith))
  split
  · have r1 := abs_le.mp (rndh (x := g1 * t1 + fl (g2 * t2)) (by rw [abs_le]; constructor <;> linarith))
    have r0 := abs_le.mp (rnd1 (x := g0 * t0 + fl (g1 * t1 + fl (g2 * t2))) (by rw [abs_le]; constructor <;> linarith))
    rw [abs_le]; constructor <;> linarith
  · have q1 := abs_le.mp (rndq (x := g1 * t1) (by rw [abs_le]; constructor <;> linarith))
    have q0 := abs_le.mp (rndq (x := g0 * t0) (by rw [abs_le]; constructor <;> linarith))
    have r1 := abs_le.mp (rndh (x := fl (g1 * t1) + fl (g2 * t2)) (by rw [abs_le]; constructor <;> linarith))
    have r0 := abs_le.mp (rnd1 (x := fl (g0 * t0) + fl (fl (g1 * t1) + fl (g2 * t2))) (by rw [abs_le]; constructor <;> linarith))
    rw [abs_le]; constructor <;> linarith

end
end FastNoise.F32
