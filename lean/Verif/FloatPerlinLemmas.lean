import Verif.FloatPerlin
import Verif.FloatErrLemmas
import Verif.LatticeLemmas
import Mathlib.Analysis.Calculus.MeanValue
import Mathlib.Analysis.Calculus.Deriv.Pow
/-!
# How far the binary32 Perlin noise is from the exact one
-/
namespace FastNoise.F32
open FastNoise.Hash FastNoise.Num FastNoise.Basic FastNoise.Lattice
open FastNoise.Gradient (Feat xorSign selectHighBit select perm16 perm8 perm32)

noncomputable section

/-- Half a unit in the last place of numbers up to 1. -/
def U : ℝ := 1 / 2 ^ 25

theorem U_pos : 0 < U := by unfold U; norm_num
theorem U_small : U ≤ 1 / 10000000 := by unfold U; norm_num

theorem rnd1 {x : ℝ} (h : |x| ≤ 1) : |fl x - x| ≤ U := by
  have := fl_err_le (x := x) (k := 0) (by norm_num) (by simpa using h)
  unfold U; norm_num at this ⊢; exact this
theorem rnd2 {x : ℝ} (h : |x| ≤ 2) : |fl x - x| ≤ 2 * U := by
  have := fl_err_le (x := x) (k := 1) (by norm_num) (by simpa using h)
  unfold U; norm_num at this ⊢; exact this
theorem rnd4 {x : ℝ} (h : |x| ≤ 4) : |fl x - x| ≤ 4 * U := by
  have := fl_err_le (x := x) (k := 2) (by norm_num) (by norm_num; exact h)
  unfold U; norm_num at this ⊢; exact this
theorem rnd8 {x : ℝ} (h : |x| ≤ 8) : |fl x - x| ≤ 8 * U := by
  have := fl_err_le (x := x) (k := 3) (by norm_num) (by norm_num; exact h)
  unfold U; norm_num at this ⊢; exact this
theorem rnd16 {x : ℝ} (h : |x| ≤ 16) : |fl x - x| ≤ 16 * U := by
  have := fl_err_le (x := x) (k := 4) (by norm_num) (by norm_num; exact h)
  unfold U; norm_num at this ⊢; exact this

/-! ## The interpolation weight -/

theorem quintic_err (L : Level) {t : ℝ} (t0 : 0 ≤ t) (t1 : t ≤ 1) : |interpQuintic L t - Num.interpQuintic t| ≤ 80 * U := by
  have hu := U_pos
  have hs := U_small
  -- inner
  have h1 : |fma L t 6 (-15) - (6 * t - 15)| ≤ 24 * U := by
    unfold fma
    split
    · have := rnd16 (x := t * 6 + -15) (by rw [abs_le]; constructor <;> linarith)
      rw [abs_le] at this ⊢; constructor <;> linarith
    · have a := abs_le.mp (rnd8 (x := t * 6) (by rw [abs_le]; constructor <;> linarith))
      have b := abs_le.mp (rnd16 (x := fl (t * 6) + -15) (by rw [abs_le]; constructor <;> linarith))
      unfold add mul
      rw [abs_le]; constructor <;> linarith
  obtain ⟨q1, e1⟩ : ∃ q, fma L t 6 (-15) = q := ⟨_, rfl⟩
  rw [e1] at h1
  have q1b := abs_le.mp h1
  have htq : |t * q1 - t * (6 * t - 15)| ≤ 24 * U := by
    rw [← mul_sub, abs_mul, abs_of_nonneg t0]
    nlinarith [abs_nonneg (q1 - (6 * t - 15))]
  have htqb := abs_le.mp htq
  have hp1 : 1 ≤ t * (6 * t - 15) + 10 := by nlinarith
  have hp10 : t * (6 * t - 15) + 10 ≤ 10 := by nlinarith
  have h2 : |fma L t q1 10 - (t * (6 * t - 15) + 10)| ≤ 56 * U := by
    unfold fma
    split
    · have := abs_le.mp (rnd16 (x := t * q1 + 10) (by rw [abs_le]; constructor <;> linarith))
      rw [abs_le]; constructor <;> linarith
    · have a := abs_le.mp (rnd16 (x := t * q1) (by rw [abs_le]; constructor <;> linarith))
      have b := abs_le.mp (rnd16 (x := fl (t * q1) + 10) (by rw [abs_le]; constructor <;> linarith))
      unfold add mul
      rw [abs_le]; constructor <;> linarith
  obtain ⟨q2, e2⟩ : ∃ q, fma L t q1 10 = q := ⟨_, rfl⟩
  rw [e2] at h2
  have q2b := abs_le.mp h2
  -- the cube
  have htt : t * t ≤ 1 := by nlinarith
  have htt0 : 0 ≤ t * t := mul_self_nonneg t
  have s1 := rnd1 (x := t * t) (by rw [abs_of_nonneg htt0]; exact htt)
  obtain ⟨sb0, sb1⟩ := fl_mem rep_zero rep_one (x := t * t) ⟨htt0, htt⟩
  obtain ⟨s, es⟩ : ∃ s, fl (t * t) = s := ⟨_, rfl⟩
  rw [es] at s1 sb0 sb1
  have hst : |s * t - t * t * t| ≤ U := by
    rw [← sub_mul, abs_mul, abs_of_nonneg t0]
    nlinarith [abs_nonneg (s - t * t)]
  have st1 : s * t ≤ 1 := by nlinarith
  have st0 : 0 ≤ s * t := mul_nonneg sb0 t0
  have c1 := rnd1 (x := s * t) (by rw [abs_of_nonneg st0]; exact st1)
  obtain ⟨c, ec⟩ : ∃ c, fl (s * t) = c := ⟨_, rfl⟩
  rw [ec] at c1
  have hc : |c - t * t * t| ≤ 2 * U := by
    have := abs_le.mp c1; have := abs_le.mp hst
    rw [abs_le]; constructor <;> linarith
  have hE : Num.interpQuintic t = t * t * t * (t * (6 * t - 15) + 10) := by unfold Num.interpQuintic Num.fma; ring
  obtain ⟨p, ep⟩ : ∃ p, t * (6 * t - 15) + 10 = p := ⟨_, rfl⟩
  have hq : t * t * t * p ≤ 1 := by
    have := (quintic_mem t0 t1).2
    rw [hE, ep] at this; exact this
  rw [ep] at h2 q2b hp1 hp10 hE
  have ttt0 : 0 ≤ t * t * t := mul_nonneg htt0 t0
  have ttt1 : t * t * t ≤ 1 := by nlinarith
  have hq0 : 0 ≤ t * t * t * p := mul_nonneg ttt0 (by linarith)
  have hprod : |c * q2 - t * t * t * p| ≤ 78 * U := by
    have e : c * q2 - t * t * t * p = (c - t * t * t) * q2 + t * t * t * (q2 - p) := by ring
    rw [e]
    refine (abs_add_le _ _).trans ?_
    rw [abs_mul, abs_mul, abs_of_nonneg ttt0]
    have a1 : |q2| ≤ 11 := by rw [abs_le]; constructor <;> linarith
    have a2 : |c - t * t * t| * |q2| ≤ 2 * U * 11 := mul_le_mul hc a1 (abs_nonneg _) (by linarith)
    have a3 : t * t * t * |q2 - p| ≤ 1 * (56 * U) := mul_le_mul ttt1 h2 (abs_nonneg _) (by norm_num)
    linarith
  have hpb := abs_le.mp hprod
  have f := abs_le.mp (rnd2 (x := c * q2) (by rw [abs_le]; constructor <;> linarith))
  have eI : interpQuintic L t = fl (c * q2) := by
    unfold interpQuintic mul
    rw [es, ec, e1, e2]
  rw [eI, hE, abs_le]
  constructor <;> linarith

theorem quintic_lipschitz {t s : ℝ} (t0 : 0 ≤ t) (t1 : t ≤ 1) (s0 : 0 ≤ s) (s1 : s ≤ 1) : |Num.interpQuintic t - Num.interpQuintic s| ≤ 2 * |t - s| := by
  have hd : ∀ x ∈ Set.Icc (0 : ℝ) 1, HasDerivWithinAt Num.interpQuintic (30 * (x * (1 - x)) ^ 2) (Set.Icc 0 1) x := by
    intro x _
    have e : Num.interpQuintic = fun t : ℝ => 6 * t ^ 5 - 15 * t ^ 4 + 10 * t ^ 3 := by
      funext t; unfold Num.interpQuintic Num.fma; ring
    rw [e]
    have h := (((hasDerivAt_pow 5 x).const_mul 6).sub ((hasDerivAt_pow 4 x).const_mul 15)).add ((hasDerivAt_pow 3 x).const_mul 10)
    have h' := h.hasDerivWithinAt (s := Set.Icc (0:ℝ) 1)
    convert h' using 1
    all_goals try rfl
    simp only [Nat.cast_ofNat]
    norm_num
    ring
  have := (convex_Icc (0 : ℝ) 1).norm_image_sub_le_of_norm_hasDerivWithin_le (C := 2) hd (by
    intro x hx
    rw [Real.norm_eq_abs, abs_of_nonneg (by positivity)]
    have a : 0 ≤ x * (1 - x) := mul_nonneg hx.1 (by linarith [hx.2])
    have b : x * (1 - x) ≤ 1 / 4 := by nlinarith [sq_nonneg (x - 1 / 2)]
    nlinarith) (x := s) (y := t) ⟨s0, s1⟩ ⟨t0, t1⟩
  simpa [Real.norm_eq_abs] using this

theorem fract_err (x : ℝ) : |sub x (⌊x⌋ : ℤ) - (x - (⌊x⌋ : ℤ))| ≤ U := by
  have h := fract_range x
  exact rnd1 (by rw [abs_of_nonneg h.1]; exact h.2)

theorem qweight_err (L : Level) (x : ℝ) : |interpQuintic L (sub x (⌊x⌋ : ℤ)) - Num.interpQuintic (x - (⌊x⌋ : ℤ))| ≤ 82 * U := by
  obtain ⟨-, a, b⟩ := fract_mem x
  have h := fract_range x
  have e1 := abs_le.mp (quintic_err L a b)
  have e2 := quintic_lipschitz a b h.1 h.2
  have e3 := fract_err x
  have e4 := abs_le.mp (e2.trans (by linarith : 2 * |sub x (⌊x⌋ : ℤ) - (x - (⌊x⌋ : ℤ))| ≤ 2 * U))
  rw [abs_le]; constructor <;> linarith

/-! ## Gradients -/

/-- `x` is a binary32 approximation of a coordinate of a corner offset. -/
structure Near (x X : ℝ) : Prop where
  rep : Rep x
  le : |x| ≤ 1
  le' : |X| ≤ 1
  err : |x - X| ≤ 2 * U

theorem Near.neg {x X : ℝ} (h : Near x X) : Near (-x) (-X) :=
  ⟨rep_neg h.rep, by rw [abs_neg]; exact h.le, by rw [abs_neg]; exact h.le', by rw [show -x - -X = -(x - X) by ring, abs_neg]; exact h.err⟩

theorem Near.xor {x X : ℝ} (h : Near x X) (s : I32) : Near (xorSign x s) (xorSign X s) := by
  unfold xorSign; split
  · exact h.neg
  · exact h

theorem Near.sel {x X y Y : ℝ} (h : Near x X) (h' : Near y Y) (b : Bool) : Near (select b x y) (select b X Y) := by
  unfold select; split <;> assumption

theorem Near.selHigh {x X y Y : ℝ} (h : Near x X) (h' : Near y Y) (b : I32) : Near (selectHighBit b x y) (selectHighBit b X Y) := by
  unfold selectHighBit; split <;> assumption

theorem near_offset (x : ℝ) (b : Bool) : Near (if b then sub (sub x (⌊x⌋ : ℤ)) 1 else sub x (⌊x⌋ : ℤ)) (if b then x - (⌊x⌋ : ℤ) - 1 else x - (⌊x⌋ : ℤ)) := by
  obtain ⟨r, a0, a1⟩ := fract_mem x
  have h := fract_range x
  have e := fract_err x
  have hu := U_pos
  have eb := abs_le.mp e
  cases b
  · simp only [Bool.false_eq_true, if_false]
    exact ⟨r, by rw [abs_of_nonneg a0]; exact a1, by rw [abs_of_nonneg h.1]; exact h.2, by linarith⟩
  · simp only [if_true]
    obtain ⟨f, ef⟩ : ∃ f, sub x (⌊x⌋ : ℤ) = f := ⟨_, rfl⟩
    rw [ef] at r a0 a1 eb ⊢
    have hb : |f - 1| ≤ 1 := by rw [abs_le]; constructor <;> linarith
    have e2 := abs_le.mp (rnd1 hb)
    refine ⟨rep_fl _, abs_le.mpr (fl_mem (rep_neg rep_one) rep_one (abs_le.mp hb)), by rw [abs_le]; constructor <;> linarith, ?_⟩
    unfold sub
    rw [abs_le]; constructor <;> linarith

theorem onePlus_err : |onePlusRoot2 - (1 + √2)| ≤ 4 * U ∧ |onePlusRoot2| ≤ 2.415 ∧ |1 + √2| ≤ 2.415 := by
  have h1 : onePlusRoot2 = 10125946 / 2 ^ 22 := by
    unfold onePlusRoot2 add fl root2F
    have hl : lastPlace (1 + 11863283 / 2 ^ 23) = -22 := by
      apply le_antisymm
      · have := lastPlace_le (x := (1 + 11863283 / 2 ^ 23 : ℝ)) (by norm_num) (k := 2) (by norm_num) (by rw [abs_of_pos (by norm_num)]; norm_num)
        omega
      · have := le_lastPlace (x := (1 + 11863283 / 2 ^ 23 : ℝ)) (k := 1) (by rw [abs_of_pos (by norm_num)]; norm_num)
        omega
    rw [hl]
    have hr : roundEven ((1 + 11863283 / 2 ^ 23 : ℝ) / 2 ^ (-22 : ℤ)) = 10125946 := by
      have e : (1 + 11863283 / 2 ^ 23 : ℝ) / 2 ^ (-22 : ℤ) = 10125945 + 1 / 2 := by norm_num
      rw [e]
      unfold roundEven
      have hf : ⌊(10125945 + 1 / 2 : ℝ)⌋ = 10125945 := by rw [Int.floor_eq_iff]; norm_num
      simp only [hf]
      norm_num
    rw [hr]; norm_num
  have l : (1.41421356 : ℝ) ≤ √2 := Real.le_sqrt_of_sq_le (by norm_num)
  have u : √2 ≤ (1.41421357 : ℝ) := by rw [Real.sqrt_le_left (by norm_num)]; norm_num
  rw [h1]
  refine ⟨?_, by norm_num [abs_le], ?_⟩
  · unfold U; rw [abs_le]; constructor <;> norm_num <;> linarith
  · rw [abs_le]; constructor <;> linarith

theorem mul_close {a A b B α β M N : ℝ} (ha : |a - A| ≤ α) (hb : |b - B| ≤ β) (hB : |B| ≤ M) (hA : |a| ≤ N) : |a * b - A * B| ≤ α * M + N * β := by
  have e : a * b - A * B = (a - A) * B + a * (b - B) := by ring
  rw [e]
  refine (abs_add_le _ _).trans ?_
  rw [abs_mul, abs_mul]
  exact add_le_add (mul_le_mul ha hB (abs_nonneg _) ((abs_nonneg _).trans ha)) (mul_le_mul hA hb (abs_nonneg _) ((abs_nonneg _).trans hA))

/-- `FMulAdd( g, x, y * h )` with the coefficients of the 2D gradients. -/
theorem dot2_err (L : Level) {g h G H α β M N x y X Y : ℝ} (hg : |g - G| ≤ α) (hh : |h - H| ≤ β) (hα : α + β ≤ 4 * U) (gM : |g| ≤ M) (hN : |h| ≤ N) (hMN : M + N ≤ 3.415)
    (hx : Near x X) (hy : Near y Y) : |fma L g x (mul y h) - (G * X + Y * H)| ≤ 23 * U := by
  have hu := U_pos
  have hs := U_small
  have M0 := (abs_nonneg _).trans gM
  have N0 := (abs_nonneg _).trans hN
  have a1 := abs_le.mp (mul_close hg hx.err hx.le' gM)
  have a2 := abs_le.mp (mul_close hh hy.err hy.le' hN)
  have b1 : |g * x| ≤ M := by rw [abs_mul]; nlinarith [hx.le, abs_nonneg g, abs_nonneg x]
  have b2 : |y * h| ≤ N := by rw [abs_mul]; nlinarith [hy.le, abs_nonneg h, abs_nonneg y]
  have b1' := abs_le.mp b1
  have b2' := abs_le.mp b2
  have r2 := abs_le.mp (rnd4 (x := y * h) (by linarith))
  have hMU : M * (2 * U) + N * (2 * U) ≤ 3.415 * (2 * U) := by nlinarith
  unfold fma
  split
  · have r3 := abs_le.mp (rnd4 (x := g * x + fl (y * h)) (by rw [abs_le]; constructor <;> linarith))
    unfold mul
    rw [abs_le]; constructor <;> linarith
  · have r1 := abs_le.mp (rnd4 (x := g * x) (by linarith))
    have r3 := abs_le.mp (rnd4 (x := fl (g * x) + fl (y * h)) (by rw [abs_le]; constructor <;> linarith))
    unfold add mul
    rw [abs_le]; constructor <;> linarith

theorem gen2_err (L : Level) {u v X Y : ℝ} (hx : Near u X) (hy : Near v Y) : |fma L onePlusRoot2 u v - ((1 + √2) * X + Y)| ≤ 23 * U := by
  have hu := U_pos
  have hs := U_small
  obtain ⟨hc, hc1, hc2⟩ := onePlus_err
  obtain ⟨c, ec⟩ : ∃ c, onePlusRoot2 = c := ⟨_, rfl⟩
  rw [ec] at hc hc1 ⊢
  have a1 := abs_le.mp (mul_close hc hx.err hx.le' hc1)
  have a2 := abs_le.mp hy.err
  have b1 : |c * u| ≤ 2.415 := by rw [abs_mul]; nlinarith [hx.le, abs_nonneg c, abs_nonneg u]
  have b1' := abs_le.mp b1
  have b2' := abs_le.mp hy.le
  unfold fma
  split
  · have r3 := abs_le.mp (rnd4 (x := c * u + v) (by rw [abs_le]; constructor <;> linarith))
    rw [abs_le]; constructor <;> linarith
  · have r1 := abs_le.mp (rnd4 (x := c * u) (by linarith))
    have r3 := abs_le.mp (rnd4 (x := fl (c * u) + v) (by rw [abs_le]; constructor <;> linarith))
    unfold add mul
    rw [abs_le]; constructor <;> linarith

theorem dotPerlin2_err (ft : Feat) (L : Level) (h : I32) {x y X Y : ℝ} (hx : Near x X) (hy : Near y Y) :
    |dotPerlin2 ft L h x y - Gradient.dotPerlin2 ft h X Y| ≤ 23 * U := by
  have hu := U_pos
  obtain ⟨hc, hc1, hc2⟩ := onePlus_err
  have hc' : |-onePlusRoot2 - (-1 - √2)| ≤ 4 * U := by rw [show -onePlusRoot2 - (-1 - √2) = -(onePlusRoot2 - (1 + √2)) by ring, abs_neg]; exact hc
  have hc1' : |-onePlusRoot2| ≤ 2.415 := by rw [abs_neg]; exact hc1
  have o0 : |(1 : ℝ) - 1| ≤ 0 := by norm_num
  have o1 : |(1 : ℝ)| ≤ 1 := by norm_num
  have n0 : |(-1 : ℝ) - -1| ≤ 0 := by norm_num
  have n1 : |(-1 : ℝ)| ≤ 1 := by norm_num
  have tab : ∀ r < 16, ∃ α β M N : ℝ, α + β ≤ 4 * U ∧ M + N ≤ 3.415 ∧
      |[onePlusRoot2, -onePlusRoot2, onePlusRoot2, -onePlusRoot2, 1, -1, 1, -1, onePlusRoot2, -onePlusRoot2, onePlusRoot2, -onePlusRoot2, 1, -1, 1, -1].getD r 0
        - [1 + √2, -1 - √2, 1 + √2, -1 - √2, 1, -1, 1, -1, 1 + √2, -1 - √2, 1 + √2, -1 - √2, 1, -1, 1, -1].getD r 0| ≤ α ∧
      |[onePlusRoot2, -onePlusRoot2, onePlusRoot2, -onePlusRoot2, 1, -1, 1, -1, onePlusRoot2, -onePlusRoot2, onePlusRoot2, -onePlusRoot2, 1, -1, 1, -1].getD r 0| ≤ M ∧
      |[1, 1, -1, -1, onePlusRoot2, onePlusRoot2, -onePlusRoot2, -onePlusRoot2, 1, 1, -1, -1, onePlusRoot2, onePlusRoot2, -onePlusRoot2, -onePlusRoot2].getD r 0
        - [1, 1, -1, -1, 1 + √2, 1 + √2, -1 - √2, -1 - √2, 1, 1, -1, -1, 1 + √2, 1 + √2, -1 - √2, -1 - √2].getD r 0| ≤ β ∧
      |[1, 1, -1, -1, onePlusRoot2, onePlusRoot2, -onePlusRoot2, -onePlusRoot2, 1, 1, -1, -1, onePlusRoot2, onePlusRoot2, -onePlusRoot2, -onePlusRoot2].getD r 0| ≤ N := by
    intro r hr
    have h1 : ∀ {g G h H : ℝ}, |g - G| ≤ 4 * U → |g| ≤ 2.415 → |h - H| ≤ 0 → |h| ≤ 1 → ∃ α β M N : ℝ, α + β ≤ 4 * U ∧ M + N ≤ 3.415 ∧ |g - G| ≤ α ∧ |g| ≤ M ∧ |h - H| ≤ β ∧ |h| ≤ N :=
      fun a b c d => ⟨4 * U, 0, 2.415, 1, by linarith, by norm_num, a, b, c, d⟩
    have h2 : ∀ {g G h H : ℝ}, |g - G| ≤ 0 → |g| ≤ 1 → |h - H| ≤ 4 * U → |h| ≤ 2.415 → ∃ α β M N : ℝ, α + β ≤ 4 * U ∧ M + N ≤ 3.415 ∧ |g - G| ≤ α ∧ |g| ≤ M ∧ |h - H| ≤ β ∧ |h| ≤ N :=
      fun a b c d => ⟨0, 4 * U, 1, 2.415, by linarith, by norm_num, a, b, c, d⟩
    interval_cases r
    exacts [h1 hc hc1 o0 o1, h1 hc' hc1' o0 o1, h1 hc hc1 n0 n1, h1 hc' hc1' n0 n1, h2 o0 o1 hc hc1, h2 n0 n1 hc hc1, h2 o0 o1 hc' hc1', h2 n0 n1 hc' hc1',
      h1 hc hc1 o0 o1, h1 hc' hc1' o0 o1, h1 hc hc1 n0 n1, h1 hc' hc1' n0 n1, h2 o0 o1 hc hc1, h2 n0 n1 hc hc1, h2 o0 o1 hc' hc1', h2 n0 n1 hc' hc1']
  unfold dotPerlin2 Gradient.dotPerlin2 Gradient.fma Gradient.root2
  simp only
  split
  · unfold perm16
    obtain ⟨α, β, M, N, h1, h2, h3, h4, h5, h6⟩ := tab (h.toNat % 16) (Nat.mod_lt _ (by norm_num))
    exact dot2_err L h3 h5 h1 h4 h6 h2 hx hy
  · split
    · unfold perm8
      obtain ⟨α, β, M, N, h1, h2, h3, h4, h5, h6⟩ := tab (h.toNat % 8) (lt_trans (Nat.mod_lt _ (by norm_num)) (by norm_num))
      have hr : h.toNat % 8 < 8 := Nat.mod_lt _ (by norm_num)
      generalize h.toNat % 8 = r at *
      have key := dot2_err L h3 h5 h1 h4 h6 h2 hx hy
      interval_cases r <;> exact key
    · exact gen2_err L ((hy.xor _).selHigh (hx.xor _) _) ((hx.xor _).selHigh (hy.xor _) _)

/-- Coefficients that do not round. -/
def UnitC (g : ℝ) : Prop := g = -1 ∨ g = 0 ∨ g = 1

theorem UnitC.abs {g : ℝ} (h : UnitC g) : |g| ≤ 1 := by rcases h with rfl | rfl | rfl <;> norm_num

theorem UnitC.rep {g x : ℝ} (h : UnitC g) (hx : Rep x) : Rep (g * x) := by
  rcases h with rfl | rfl | rfl
  · rw [neg_one_mul]; exact rep_neg hx
  · rw [zero_mul]; exact rep_zero
  · rw [one_mul]; exact hx

theorem fma_unit (L : Level) {g x : ℝ} (h : UnitC g) (hx : Rep x) (c : ℝ) : fma L g x c = fl (g * x + c) := by
  unfold fma add mul
  rw [fl_rep (h.rep hx)]; simp

theorem fma_unit' (L : Level) {g x : ℝ} (h : UnitC g) (hx : Rep x) (c : ℝ) : fma L x g c = fl (x * g + c) := by
  have := fma_unit L h hx c
  unfold fma mul at *
  rw [mul_comm x g]; exact this

theorem mul_unit {g x : ℝ} (h : UnitC g) (hx : Rep x) : mul x g = x * g := by
  unfold mul; rw [mul_comm]; exact fl_rep (h.rep hx)

theorem unit_getD {t : List ℝ} (h : ∀ a ∈ t, UnitC a) (n : Nat) : UnitC (t.getD n 0) := by
  rw [List.getD_eq_getElem?_getD]
  cases e : t[n]? with
  | none => exact Or.inr (Or.inl rfl)
  | some a => exact h a (List.mem_of_getElem? e)

theorem Near.coef {x X g : ℝ} (h : Near x X) (hg : UnitC g) : |g * x| ≤ 1 ∧ |g * x - g * X| ≤ 2 * U := by
  have hu := U_pos
  have := h.err; have := h.le
  rcases hg with rfl | rfl | rfl
  · rw [show (-1) * x - (-1) * X = -(x - X) by ring, neg_one_mul, abs_neg, abs_neg]; exact ⟨h.le, h.err⟩
  · simp [hu.le]
  · rw [one_mul, one_mul]; exact ⟨h.le, h.err⟩

theorem Near.coef' {x X g : ℝ} (h : Near x X) (hg : UnitC g) : |x * g| ≤ 1 ∧ |x * g - X * g| ≤ 2 * U := by
  have := h.coef hg; rwa [mul_comm g x, mul_comm g X] at this

theorem dotCommon_err (ft : Feat) (L : Level) (h : I32) {x y z X Y Z : ℝ} (hx : Near x X) (hy : Near y Y) (hz : Near z Z) :
    |dotCommon ft L h x y z - Gradient.dotCommon ft h X Y Z| ≤ 23 * U := by
  have hu := U_pos
  have hs := U_small
  unfold dotCommon Gradient.dotCommon Gradient.fma
  simp only
  split
  · have u1 : UnitC (perm16 h [1, -1, 1, -1, 1, -1, 1, -1, 0, 0, 0, 0, 1, 0, -1, 0]) := unit_getD (by simp [UnitC]) _
    have u2 : UnitC (perm16 h [1, 1, -1, -1, 0, 0, 0, 0, 1, -1, 1, -1, 1, -1, 1, -1]) := unit_getD (by simp [UnitC]) _
    have u3 : UnitC (perm16 h [0, 0, 0, 0, 1, 1, -1, -1, 1, 1, -1, -1, 0, 1, 0, -1]) := unit_getD (by simp [UnitC]) _
    rw [mul_unit u3 hz.rep, fma_unit' L u2 hy.rep, fma_unit L u1 hx.rep]
    generalize perm16 h [1, -1, 1, -1, 1, -1, 1, -1, 0, 0, 0, 0, 1, 0, -1, 0] = g1 at *
    generalize perm16 h [1, 1, -1, -1, 0, 0, 0, 0, 1, -1, 1, -1, 1, -1, 1, -1] = g2 at *
    generalize perm16 h [0, 0, 0, 0, 1, 1, -1, -1, 1, 1, -1, -1, 0, 1, 0, -1] = g3 at *
    obtain ⟨p1, p2⟩ := hx.coef u1
    obtain ⟨q1, q2⟩ := hy.coef' u2
    obtain ⟨r1, r2⟩ := hz.coef' u3
    rw [abs_le] at p1 p2 q1 q2 r1 r2
    have s1 := abs_le.mp (rnd2 (x := y * g2 + z * g3) (by rw [abs_le]; constructor <;> linarith))
    have s2 := abs_le.mp (rnd4 (x := g1 * x + fl (y * g2 + z * g3)) (by rw [abs_le]; constructor <;> linarith))
    rw [abs_le]; constructor <;> linarith
  · generalize (if ft.sse41 = true then (h <<< 28).msb else BitVec.slt 7 (h &&& 13)) = gt7
    have n1 := (hy.sel hx gt7).xor (h <<< 31)
    have n2 := (hy.sel (hx.sel hz (h &&& 13 == 12)) (BitVec.slt (h &&& 13) 2)).xor (h.sshiftRight 1 <<< 31)
    generalize xorSign (select gt7 y x) (h <<< 31) = u at *
    generalize xorSign (select gt7 Y X) (h <<< 31) = u' at *
    generalize xorSign (select (BitVec.slt (h &&& 13) 2) y (select (h &&& 13 == 12) x z)) (h.sshiftRight 1 <<< 31) = v at *
    generalize xorSign (select (BitVec.slt (h &&& 13) 2) Y (select (h &&& 13 == 12) X Z)) (h.sshiftRight 1 <<< 31) = v' at *
    have a1 := abs_le.mp n1.le; have a2 := abs_le.mp n1.err
    have b1 := abs_le.mp n2.le; have b2 := abs_le.mp n2.err
    have s := abs_le.mp (rnd2 (x := u + v) (by rw [abs_le]; constructor <;> linarith))
    unfold add
    rw [abs_le]; constructor <;> linarith

theorem dotPerlin4_err (ft : Feat) (L : Level) (h : I32) {x y z w X Y Z W : ℝ} (hx : Near x X) (hy : Near y Y) (hz : Near z Z) (hw : Near w W) :
    |dotPerlin4 ft L h x y z w - Gradient.dotPerlin4 ft h X Y Z W| ≤ 23 * U := by
  have hu := U_pos
  have hs := U_small
  unfold dotPerlin4 Gradient.dotPerlin4 Gradient.fma
  simp only
  split
  · have u1 : UnitC (perm32 [0, 0, 0, 0, 0, 0, 0, 0, 1, -1, 1, -1, 1, -1, 1, -1] h [1, -1, 1, -1, 1, -1, 1, -1, 1, -1, 1, -1, 1, -1, 1, -1]) := unit_getD (by simp [UnitC]) _
    have u2 : UnitC (perm32 [1, -1, 1, -1, 1, -1, 1, -1, 0, 0, 0, 0, 0, 0, 0, 0] h [1, 1, -1, -1, 1, 1, -1, -1, 1, 1, -1, -1, 1, 1, -1, -1]) := unit_getD (by simp [UnitC]) _
    have u3 : UnitC (perm32 [1, 1, -1, -1, 1, 1, -1, -1, 1, 1, -1, -1, 1, 1, -1, -1] h [0, 0, 0, 0, 0, 0, 0, 0, 1, 1, 1, 1, -1, -1, -1, -1]) := unit_getD (by simp [UnitC]) _
    have u4 : UnitC (perm32 [1, 1, 1, 1, -1, -1, -1, -1, 1, 1, 1, 1, -1, -1, -1, -1] h [1, 1, 1, 1, -1, -1, -1, -1, 0, 0, 0, 0, 0, 0, 0, 0]) := unit_getD (by simp [UnitC]) _
    rw [mul_unit u4 hw.rep, fma_unit' L u3 hz.rep, fma_unit' L u2 hy.rep, fma_unit L u1 hx.rep]
    generalize perm32 [0, 0, 0, 0, 0, 0, 0, 0, 1, -1, 1, -1, 1, -1, 1, -1] h [1, -1, 1, -1, 1, -1, 1, -1, 1, -1, 1, -1, 1, -1, 1, -1] = g1 at *
    generalize perm32 [1, -1, 1, -1, 1, -1, 1, -1, 0, 0, 0, 0, 0, 0, 0, 0] h [1, 1, -1, -1, 1, 1, -1, -1, 1, 1, -1, -1, 1, 1, -1, -1] = g2 at *
    generalize perm32 [1, 1, -1, -1, 1, 1, -1, -1, 1, 1, -1, -1, 1, 1, -1, -1] h [0, 0, 0, 0, 0, 0, 0, 0, 1, 1, 1, 1, -1, -1, -1, -1] = g3 at *
    generalize perm32 [1, 1, 1, 1, -1, -1, -1, -1, 1, 1, 1, 1, -1, -1, -1, -1] h [1, 1, 1, 1, -1, -1, -1, -1, 0, 0, 0, 0, 0, 0, 0, 0] = g4 at *
    obtain ⟨p1, p2⟩ := hx.coef u1
    obtain ⟨q1, q2⟩ := hy.coef' u2
    obtain ⟨r1, r2⟩ := hz.coef' u3
    obtain ⟨t1, t2⟩ := hw.coef' u4
    rw [abs_le] at p1 p2 q1 q2 r1 r2 t1 t2
    have s1 := abs_le.mp (rnd2 (x := z * g3 + w * g4) (by rw [abs_le]; constructor <;> linarith))
    have s2 := abs_le.mp (rnd4 (x := y * g2 + fl (z * g3 + w * g4)) (by rw [abs_le]; constructor <;> linarith))
    have s3 := abs_le.mp (rnd8 (x := g1 * x + fl (y * g2 + fl (z * g3 + w * g4))) (by rw [abs_le]; constructor <;> linarith))
    rw [abs_le]; constructor <;> linarith
  · have n1 := (hx.sel hy (BitVec.slt 0 (h &&& ((3 <<< 3 : ℕ) : I32)))).xor (h <<< 31)
    have n2 := (hy.selHigh hz (h <<< 27)).xor (h.sshiftRight 1 <<< 31)
    have n3 := (hz.sel hw (BitVec.slt ((2 <<< 3 : ℕ) : I32) (h &&& ((3 <<< 3 : ℕ) : I32)))).xor (h.sshiftRight 2 <<< 31)
    generalize xorSign (select (BitVec.slt 0 (h &&& ((3 <<< 3 : ℕ) : I32))) x y) (h <<< 31) = a at *
    generalize xorSign (select (BitVec.slt 0 (h &&& ((3 <<< 3 : ℕ) : I32))) X Y) (h <<< 31) = a' at *
    generalize xorSign (selectHighBit (h <<< 27) y z) (h.sshiftRight 1 <<< 31) = b at *
    generalize xorSign (selectHighBit (h <<< 27) Y Z) (h.sshiftRight 1 <<< 31) = b' at *
    generalize xorSign (select (BitVec.slt ((2 <<< 3 : ℕ) : I32) (h &&& ((3 <<< 3 : ℕ) : I32))) z w) (h.sshiftRight 2 <<< 31) = c at *
    generalize xorSign (select (BitVec.slt ((2 <<< 3 : ℕ) : I32) (h &&& ((3 <<< 3 : ℕ) : I32))) Z W) (h.sshiftRight 2 <<< 31) = c' at *
    have a1 := abs_le.mp n1.le; have a2 := abs_le.mp n1.err
    have b1 := abs_le.mp n2.le; have b2 := abs_le.mp n2.err
    have c1 := abs_le.mp n3.le; have c2 := abs_le.mp n3.err
    have s := abs_le.mp (rnd2 (x := a + b) (by rw [abs_le]; constructor <;> linarith))
    have s' := abs_le.mp (rnd4 (x := fl (a + b) + c) (by rw [abs_le]; constructor <;> linarith))
    unfold add
    rw [abs_le]; constructor <;> linarith

/-! ## Interpolation -/

theorem lerpP_err (L : Level) {a b t : ℝ} (ha : |a| ≤ 3.6) (hb : |b| ≤ 3.6) (t0 : -0.01 ≤ t) (t1 : t ≤ 1.01) : |lerp L a b t - Num.lerp a b t| ≤ 21 * U := by
  have hu := U_pos
  have hs := U_small
  have a' := abs_le.mp ha
  have b' := abs_le.mp hb
  have d := rnd8 (x := b - a) (by rw [abs_le]; constructor <;> linarith)
  have ht : |t| ≤ 1.01 := by rw [abs_le]; constructor <;> linarith
  have td : |t * fl (b - a) - t * (b - a)| ≤ 8.08 * U := by
    rw [← mul_sub, abs_mul]
    have := mul_le_mul ht d (abs_nonneg _) (by norm_num)
    linarith
  have tb : |t * (b - a)| ≤ 7.3 := by
    rw [abs_mul]
    have : |b - a| ≤ 7.2 := by rw [abs_le]; constructor <;> linarith
    have := mul_le_mul ht this (abs_nonneg _) (by norm_num)
    linarith
  have sb : |t * (b - a) + a| ≤ 3.7 := by
    rw [abs_le]
    constructor <;> nlinarith
  have td' := abs_le.mp td
  have tb' := abs_le.mp tb
  have sb' := abs_le.mp sb
  have r1 := abs_le.mp (rnd8 (x := t * fl (b - a)) (by rw [abs_le]; constructor <;> linarith))
  unfold lerp fma Num.lerp Num.fma add mul sub
  split
  · have r2 := abs_le.mp (rnd4 (x := t * fl (b - a) + a) (by rw [abs_le]; constructor <;> linarith))
    rw [abs_le]; constructor <;> linarith
  · have r2 := abs_le.mp (rnd4 (x := fl (t * fl (b - a)) + a) (by rw [abs_le]; constructor <;> linarith))
    rw [abs_le]; constructor <;> linarith

/-- Errors of the nested `Lerp`s with weights that may leave the unit interval by rounding. -/
theorem interpP_err (L : Level) {B : ℝ} (hB : B ≤ 3.5) (ts : List (ℝ × ℝ)) : ∀ (f g : List Bool → ℝ) (ε : ℝ), (∀ bs, bs.length = ts.length → |g bs| ≤ B) →
    (∀ bs, bs.length = ts.length → |f bs - g bs| ≤ ε) → (∀ t ∈ ts, (0 ≤ t.2 ∧ t.2 ≤ 1) ∧ |t.1 - t.2| ≤ 82 * U) → 0 ≤ B →
    ε + ts.length * ((22 + 164 * B) * U) ≤ 1 / 1000 →
    |interp L f (ts.map Prod.fst) - Lattice.interp g (ts.map Prod.snd)| ≤ ε + ts.length * ((22 + 164 * B) * U) := by
  have hu := U_pos
  have hs := U_small
  induction ts with
  | nil => intro f g ε _ h _ _ _; simpa [interp, Lattice.interp] using h [] rfl
  | cons t ts ih =>
    intro f g ε hg h ht B0 hsm
    obtain ⟨⟨b0, b1⟩, hτ⟩ := ht t (by simp)
    have hstep : 0 ≤ (22 + 164 * B) * U := by positivity
    have hlen : (0 : ℝ) ≤ ts.length := by positivity
    have e0 : ((t :: ts).length : ℝ) = ts.length + 1 := by push_cast [List.length_cons]; ring
    rw [e0] at hsm ⊢
    have hε : ε ≤ 1 / 1000 := by nlinarith [mul_nonneg hlen hstep]
    have := ih (fun bs => lerp L (f (false :: bs)) (f (true :: bs)) t.1) (fun bs => Num.lerp (g (false :: bs)) (g (true :: bs)) t.2) (ε + (22 + 164 * B) * U)
      (fun bs hb => num_lerp_mem (hg _ (by simp [hb])) (hg _ (by simp [hb])) b0 b1) ?_ (fun t h => ht t (by simp [h])) B0 (by linarith)
    · simp only [List.map_cons, interp, Lattice.interp]
      refine this.trans ?_
      linarith
    · intro bs hb
      have ga := hg (false :: bs) (by simp [hb])
      have gb := hg (true :: bs) (by simp [hb])
      have fa := h (false :: bs) (by simp [hb])
      have fb := h (true :: bs) (by simp [hb])
      generalize g (false :: bs) = a at *
      generalize g (true :: bs) = b at *
      generalize f (false :: bs) = a' at *
      generalize f (true :: bs) = b' at *
      have ga' := abs_le.mp ga
      have gb' := abs_le.mp gb
      have fa' := abs_le.mp fa
      have fb' := abs_le.mp fb
      have hτ' := abs_le.mp hτ
      have e1 := abs_le.mp (lerpP_err L (a := a') (b := b') (t := t.1) (by rw [abs_le]; constructor <;> linarith) (by rw [abs_le]; constructor <;> linarith)
        (by linarith) (by linarith))
      have e2 : Num.lerp a' b' t.1 - Num.lerp a b t.2 = ((1 - t.2) * (a' - a) + t.2 * (b' - b)) + (t.1 - t.2) * (b' - a') := by
        unfold Num.lerp Num.fma; ring
      have e3 : |(1 - t.2) * (a' - a) + t.2 * (b' - b)| ≤ ε := by rw [abs_le]; constructor <;> nlinarith
      have e4 : |(t.1 - t.2) * (b' - a')| ≤ 82 * U * (2 * (B + 1 / 1000)) := by
        rw [abs_mul]
        refine mul_le_mul hτ ?_ (abs_nonneg _) (by linarith)
        rw [abs_le]; constructor <;> linarith
      have e3' := abs_le.mp e3
      have e4' := abs_le.mp e4
      rw [abs_le]
      constructor <;> nlinarith

/-! ## The raw noise -/

/-- Bound of the exact gradient products per dimension. -/
def cornerBound (n : Nat) : ℝ := if n ≤ 2 then 3.5 else if n = 3 then 2 else 3

theorem abs_off (x : ℝ) (b : Bool) : 0 ≤ |if b = true then x - (⌊x⌋ : ℤ) - 1 else x - (⌊x⌋ : ℤ)| ∧ |if b = true then x - (⌊x⌋ : ℤ) - 1 else x - (⌊x⌋ : ℤ)| ≤ 1 :=
  ⟨abs_nonneg _, (near_offset x b).le'⟩

theorem corner_le (ft : Feat) (hash : I32) (x : Pos) (bs : List Bool) (h2 : 2 ≤ x.length) (h4 : x.length ≤ 4) (hb : bs.length = x.length) :
    |Lattice.gradDot ft hash (Lattice.offset x bs)| ≤ cornerBound x.length := by
  have hl : x.length = 2 ∨ x.length = 3 ∨ x.length = 4 := by omega
  rcases hl with hl | hl | hl <;> rw [hl] at hb
  · obtain ⟨x, y, rfl⟩ := List.length_eq_two.mp hl
    obtain ⟨b0, b1, rfl⟩ := List.length_eq_two.mp hb
    simp only [Lattice.offset, List.zipWith_cons_cons, List.zipWith_nil_left, Lattice.gradDot, Gradient.dotPerlin2_eq]
    refine (abs_perlin2 _ _ _).trans ?_
    have a := (abs_off x b0).2
    have b := (abs_off y b1).2
    have u : √2 ≤ (1.5 : ℝ) := by rw [Real.sqrt_le_left (by norm_num)]; norm_num
    have m := max_le a b
    have m0 : 0 ≤ max |if b0 = true then x - (⌊x⌋ : ℤ) - 1 else x - (⌊x⌋ : ℤ)| |if b1 = true then y - (⌊y⌋ : ℤ) - 1 else y - (⌊y⌋ : ℤ)| := le_max_of_le_left (abs_nonneg _)
    have := mul_le_mul u m m0 (by norm_num)
    have e : cornerBound [x, y].length = 3.5 := by norm_num [cornerBound]
    rw [e]
    linarith
  · obtain ⟨x, y, z, rfl⟩ := List.length_eq_three.mp hl
    obtain ⟨b0, b1, b2, rfl⟩ := List.length_eq_three.mp hb
    simp only [Lattice.offset, List.zipWith_cons_cons, List.zipWith_nil_left, Lattice.gradDot, Gradient.dotCommon_eq]
    have a := abs_off x b0
    have b := abs_off y b1
    have c := abs_off z b2
    generalize (if b0 = true then x - (⌊x⌋ : ℤ) - 1 else x - (⌊x⌋ : ℤ)) = X at *
    generalize (if b1 = true then y - (⌊y⌋ : ℤ) - 1 else y - (⌊y⌋ : ℤ)) = Y at *
    generalize (if b2 = true then z - (⌊z⌋ : ℤ) - 1 else z - (⌊z⌋ : ℤ)) = Z at *
    have := abs_common3 (Gradient.low 4 hash) X Y Z (min |X| (min |Y| |Z|)) (min_le_left _ _) ((min_le_right _ _).trans (min_le_left _ _)) ((min_le_right _ _).trans (min_le_right _ _))
    refine this.trans ?_
    norm_num [cornerBound]
    rcases min_choice |X| (min |Y| |Z|) with h | h
    · rw [h]; linarith
    · rcases min_choice |Y| |Z| with h' | h' <;> rw [h, h'] <;> linarith
  · obtain ⟨x, y, z, w, rfl⟩ := List.length_eq_four.mp hl
    obtain ⟨b0, b1, b2, b3, rfl⟩ := List.length_eq_four.mp hb
    simp only [Lattice.offset, List.zipWith_cons_cons, List.zipWith_nil_left, Lattice.gradDot, Gradient.dotPerlin4_eq]
    have a := abs_off x b0
    have b := abs_off y b1
    have c := abs_off z b2
    have d := abs_off w b3
    generalize (if b0 = true then x - (⌊x⌋ : ℤ) - 1 else x - (⌊x⌋ : ℤ)) = X at *
    generalize (if b1 = true then y - (⌊y⌋ : ℤ) - 1 else y - (⌊y⌋ : ℤ)) = Y at *
    generalize (if b2 = true then z - (⌊z⌋ : ℤ) - 1 else z - (⌊z⌋ : ℤ)) = Z at *
    generalize (if b3 = true then w - (⌊w⌋ : ℤ) - 1 else w - (⌊w⌋ : ℤ)) = W at *
    have := abs_perlin4 (Gradient.low 5 hash) X Y Z W (min (min |X| |Y|) (min |Z| |W|)) ((min_le_left _ _).trans (min_le_left _ _)) ((min_le_left _ _).trans (min_le_right _ _))
      ((min_le_right _ _).trans (min_le_left _ _)) ((min_le_right _ _).trans (min_le_right _ _))
    refine this.trans ?_
    norm_num [cornerBound]
    rcases min_choice (min |X| |Y|) (min |Z| |W|) with h | h
    · rcases min_choice |X| |Y| with h' | h' <;> rw [h, h'] <;> linarith
    · rcases min_choice |Z| |W| with h' | h' <;> rw [h, h'] <;> linarith

theorem corner_err (ft : Feat) (L : Level) (hash : I32) (x : Pos) (bs : List Bool) (h2 : 2 ≤ x.length) (h4 : x.length ≤ 4) (hb : bs.length = x.length) :
    |gradDot ft L hash (offset x bs) - Lattice.gradDot ft hash (Lattice.offset x bs)| ≤ 23 * U := by
  have hl : x.length = 2 ∨ x.length = 3 ∨ x.length = 4 := by omega
  rcases hl with hl | hl | hl <;> rw [hl] at hb
  · obtain ⟨x, y, rfl⟩ := List.length_eq_two.mp hl
    obtain ⟨b0, b1, rfl⟩ := List.length_eq_two.mp hb
    exact dotPerlin2_err ft L hash (near_offset x b0) (near_offset y b1)
  · obtain ⟨x, y, z, rfl⟩ := List.length_eq_three.mp hl
    obtain ⟨b0, b1, b2, rfl⟩ := List.length_eq_three.mp hb
    exact dotCommon_err ft L hash (near_offset x b0) (near_offset y b1) (near_offset z b2)
  · obtain ⟨x, y, z, w, rfl⟩ := List.length_eq_four.mp hl
    obtain ⟨b0, b1, b2, b3, rfl⟩ := List.length_eq_four.mp hb
    exact dotPerlin4_err ft L hash (near_offset x b0) (near_offset y b1) (near_offset z b2) (near_offset w b3)

theorem perlinRaw_err (ft : Feat) (L : Level) (seed : I32) (x : Pos) (h2 : 2 ≤ x.length) (h4 : x.length ≤ 4) :
    |perlinRaw ft L seed x - Lattice.perlinRaw ft seed x| ≤ 23 * U + x.length * ((22 + 164 * cornerBound x.length) * U) := by
  have hu := U_pos
  have hs := U_small
  have hl : x.length = 2 ∨ x.length = 3 ∨ x.length = 4 := by omega
  have := interpP_err L (B := cornerBound x.length) (by rcases hl with h | h | h <;> rw [h] <;> norm_num [cornerBound])
    (x.map fun x => (interpQuintic L (sub x (⌊x⌋ : ℤ)), Num.interpQuintic (x - (⌊x⌋ : ℤ))))
    (fun bs => gradDot ft L (hashPrimes seed (corner x bs)) (offset x bs)) (fun bs => Lattice.gradDot ft (hashPrimes seed (corner x bs)) (Lattice.offset x bs)) (23 * U)
    (fun bs hb => corner_le ft _ x bs h2 h4 (by simpa using hb)) (fun bs hb => corner_err ft L _ x bs h2 h4 (by simpa using hb)) (by
      intro t ht
      obtain ⟨x, _, rfl⟩ := List.mem_map.mp ht
      exact ⟨quintic_unit x, qweight_err L x⟩)
    (by rcases hl with h | h | h <;> rw [h] <;> norm_num [cornerBound]) (by
      rw [List.length_map]
      rcases hl with h | h | h <;> rw [h] <;> norm_num [cornerBound] <;> linarith)
  rw [List.map_map, List.map_map, List.length_map] at this
  exact this

/-! ## ScaleOutput -/

set_option maxHeartbeats 1000000 in
theorem scaleP_err (L : Level) {k : ℤ} (hk : -100 ≤ k) {lo hi v u δ b : ℝ} (bl : |lo| ≤ 2 ^ k) (bh : |hi| ≤ 2 ^ k) (b1 : 1 ≤ b) (b2 : b ≤ 1.73) (hb : Rep (b - -b))
    (hu : |u| ≤ 1.2 * b) (hd : |v - u| ≤ δ) (hδ : δ ≤ 1 / 1000) :
    |scaleOutput L ⟨lo, hi - lo⟩ v (-b) b - (Num.fma (1 / (b - -b) * (hi - lo)) (u - -b) lo)| ≤ (δ / b + 20 * U) * 2 ^ k := by
  have hU := U_pos
  have hs := U_small
  have hpk := two_zpow_pos k
  have round : ∀ (j : ℕ) (x : ℝ), |x| ≤ 2 ^ j * 2 ^ k → |fl x - x| ≤ 2 ^ j * U * 2 ^ k := by
    intro j x hx
    have := fl_err_le (x := x) (k := k + j) (by omega) (by rw [zpow_add₀ (by norm_num), zpow_natCast]; linarith)
    refine this.trans (le_of_eq ?_)
    rw [show k + (j : ℤ) - 25 = k + j + -25 by ring, zpow_add₀ (by norm_num), zpow_add₀ (by norm_num), zpow_natCast]
    unfold U; norm_num; ring
  generalize (2 : ℝ) ^ k = M at *
  have e0 : sub b (-b) = b - -b := fl_rep hb
  unfold scaleOutput
  simp only
  rw [e0]
  have hbb : b - -b = 2 * b := by ring
  rw [hbb]
  have i0 : 0 ≤ 1 / (2 * b) := by positivity
  have i1 : 1 / (2 * b) ≤ 1 / 2 := by rw [div_le_div_iff₀ (by linarith) (by norm_num)]; linarith
  have inv_err : |fl (1 / (2 * b)) - 1 / (2 * b)| ≤ U / 2 := by
    have := fl_err_le (x := 1 / (2 * b)) (k := -1) (by norm_num) (by rw [abs_of_nonneg i0]; norm_num; norm_num at i1; exact i1)
    unfold U; norm_num at this ⊢; exact this
  have rh : Rep (1 / 2) := ⟨1, -1, by norm_num, by norm_num, by norm_num⟩
  obtain ⟨iv0, iv1⟩ := fl_mem rep_zero rh ⟨i0, i1⟩
  obtain ⟨iv, hiv⟩ : ∃ iv, fl (1 / (2 * b)) = iv := ⟨_, rfl⟩
  rw [hiv] at inv_err iv0 iv1 ⊢
  obtain ⟨s, hs'⟩ : ∃ s, hi - lo = s := ⟨_, rfl⟩
  have hl := abs_le.mp bl
  have hh := abs_le.mp bh
  have sM : |s| ≤ 2 * M := by rw [← hs', abs_le]; constructor <;> linarith
  rw [hs']
  -- the factor
  have ivs : |iv * s| ≤ M := by rw [abs_mul, abs_of_nonneg iv0]; nlinarith [abs_nonneg s]
  have fe := round 0 (iv * s) (by simpa using ivs)
  rw [pow_zero, one_mul] at fe
  obtain ⟨f, hf⟩ : ∃ f, mul iv s = f := ⟨_, rfl⟩
  have hf' : fl (iv * s) = f := hf
  rw [hf'] at fe
  rw [hf]
  have hq : 1 / (2 * b) * s = s / (2 * b) := by ring
  have ferr : |f - s / (2 * b)| ≤ 2 * U * M := by
    have e : f - s / (2 * b) = (f - iv * s) + (iv - 1 / (2 * b)) * s := by ring
    rw [e]
    refine (abs_add_le _ _).trans ?_
    rw [abs_mul]
    have := mul_le_mul inv_err sM (abs_nonneg _) (by linarith)
    linarith
  have hsb : |s / (2 * b)| ≤ M / b := by
    rw [abs_div, abs_of_pos (by linarith : 0 < 2 * b), div_le_div_iff₀ (by linarith) (by linarith)]
    nlinarith
  have hMb : M / b ≤ M := by rw [div_le_iff₀ (by linarith)]; nlinarith
  -- the shifted value
  have hub := abs_le.mp hu
  have hdb := abs_le.mp hd
  have wr := rnd4 (x := v - -b) (by rw [abs_le]; constructor <;> linarith)
  have hw' : sub v (-b) = fl (v - -b) := rfl
  rw [hw']
  obtain ⟨w, hw⟩ : ∃ w, fl (v - -b) = w := ⟨_, rfl⟩
  rw [hw] at wr ⊢
  have wrb := abs_le.mp wr
  have w4 : |w| ≤ 4 := by rw [abs_le]; constructor <;> linarith
  have werr : |w - (u - -b)| ≤ 4 * U + δ := by rw [abs_le]; constructor <;> linarith
  have perr : |f * w - s / (2 * b) * (u - -b)| ≤ 12 * U * M + δ / b * M := by
    have e : f * w - s / (2 * b) * (u - -b) = (f - s / (2 * b)) * w + s / (2 * b) * (w - (u - -b)) := by ring
    rw [e]
    refine (abs_add_le _ _).trans ?_
    rw [abs_mul, abs_mul]
    have a1 := mul_le_mul ferr w4 (abs_nonneg _) (by positivity)
    have a2 := mul_le_mul hsb werr (abs_nonneg _) (by positivity)
    have a3 : M / b * (4 * U) ≤ M * (4 * U) := mul_le_mul_of_nonneg_right hMb (by positivity)
    have a4 : M / b * (4 * U + δ) = M / b * (4 * U) + δ / b * M := by ring
    rw [a4] at a2
    linarith
  have hx : s / (2 * b) * (u - -b) = s / 2 + s / (2 * b) * u := by field_simp; ring
  have sub' : |s / (2 * b) * u| ≤ 1.2 * M := by
    rw [abs_mul]
    have := mul_le_mul hsb hu (abs_nonneg _) (by positivity)
    have e : M / b * (1.2 * b) = 1.2 * M := by field_simp
    linarith
  have subb := abs_le.mp sub'
  have hsMb := abs_le.mp sM
  have δb : δ / b ≤ 1 / 1000 := by rw [div_le_iff₀ (by linarith)]; linarith
  have δM : δ / b * M ≤ 1 / 1000 * M := mul_le_mul_of_nonneg_right δb hpk.le
  have UM : U * M ≤ 1 / 10000000 * M := mul_le_mul_of_nonneg_right hs hpk.le
  have UM0 : 0 ≤ U * M := by positivity
  have perb := abs_le.mp perr
  have fw : |f * w| ≤ 2 ^ 2 * M := by rw [abs_le]; constructor <;> linarith
  have r1 := abs_le.mp (round 2 _ fw)
  unfold fma Num.fma
  rw [hq]
  have fin : ∀ p : ℝ, |p - f * w| ≤ 4 * (U * M) → |fl (p + lo) - (s / (2 * b) * (u - -b) + lo)| ≤ (δ / b + 20 * U) * M := by
    intro p hp
    have hp' := abs_le.mp hp
    have r2 := abs_le.mp (round 2 (p + lo) (by rw [abs_le]; constructor <;> linarith))
    rw [abs_le]; constructor <;> linarith
  split
  · exact fin _ (by rw [sub_self, abs_zero]; positivity)
  · exact fin _ (by unfold mul; rw [abs_le]; constructor <;> linarith)

end
end FastNoise.F32
