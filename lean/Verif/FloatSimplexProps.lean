import Verif.FloatSimplexGrid
import Verif.FloatErrLemmas
import Verif.FloatPerlinProps
import Verif.SimplexRangeProps
import Verif.SimplexRateProps
/-!
# C73: 2D Simplex noise in binary32 arithmetic

C38 and C60 speak of exact arithmetic.  Here every operation of `Simplex::Gen` 2D rounds to binary32; `Feat` chooses among the code paths compiled for the different SIMD levels and `Level` whether
multiply-add is fused.  The exact noise the result is compared with is `Simplex.simplex` (C38) with feature scale 1.

Rounding can move a position into another simplex, so the output is compared with the exact noise at a position next to the one the processor was given.
-/
namespace FastNoise.F32
open FastNoise.Hash FastNoise.Num FastNoise.Basic FastNoise.Lattice
open FastNoise.Gradient (Feat)
open FastNoise.Simplex (maskedAddI invMaskedAddI kUnskew kSkew gridNoise)

noncomputable section

/-! ## The constants of the model are the rounded constants of the code -/

/-- Simplex.inl:12-14, 17, 31, 35-38, 43, 44: each constant is the real number written there, rounded. -/
theorem C73_constants : fl (kSkew 2) = kSkew2F ∧ fl (kUnskew 2) = kUnskew2F ∧ fl (kUnskew 2 + 1) = kStep1F ∧ fl (kUnskew 2 * 2 + 1) = kStep2F ∧
    fl (-4 * (√3 + 2) / (√3 + 3)) = kFalloffMulF ∧ fl (-2 / 3) = kFalloffAddF := by
  obtain ⟨h1, h2⟩ := sqrt3_bounds
  have hm : -4 * (√3 + 2) / (√3 + 3) = -(2 / 3) * (3 + √3) := by
    have h : √3 * √3 = (3 : ℝ) := Real.mul_self_sqrt (by norm_num)
    rw [div_eq_iff (by positivity)]; linear_combination 2 / 3 * h
  rw [kSkew_eq, kUnskew_eq, hm]
  refine ⟨?_, ?_, ?_, ?_, ?_, ?_⟩
  · rw [fl_eq (m := 12281775) (e := -25) (by norm_num) (by norm_num)]
    · norm_num [kSkew2F]
    · rw [abs_of_pos (by linarith)]; norm_num; linarith
    · rw [abs_lt]; norm_num; constructor <;> linarith
  · rw [fl_eq (m := -14181772) (e := -26) (by norm_num) (by norm_num)]
    · norm_num [kUnskew2F]
    · rw [abs_of_neg (by linarith)]; norm_num; linarith
    · rw [abs_lt]; norm_num; constructor <;> linarith
  · rw [fl_eq (m := 13231773) (e := -24) (by norm_num) (by norm_num)]
    · norm_num [kStep1F]
    · rw [abs_of_pos (by linarith)]; norm_num; linarith
    · rw [abs_lt]; norm_num; constructor <;> linarith
  · rw [fl_eq (m := 9686330) (e := -24) (by norm_num) (by norm_num)]
    · norm_num [kStep2F]
    · rw [abs_of_pos (by linarith)]; norm_num; linarith
    · rw [abs_lt]; norm_num; constructor <;> linarith
  · rw [fl_eq (m := -13231773) (e := -22) (by norm_num) (by norm_num)]
    · norm_num [kFalloffMulF]
    · rw [abs_of_neg (by linarith)]; norm_num; linarith
    · rw [abs_lt]; norm_num; constructor <;> linarith
  · rw [fl_eq (m := -11184811) (e := -24) (by norm_num) (by norm_num)]
    · norm_num [kFalloffAddF]
    · norm_num [abs_of_neg]
    · rw [abs_lt]; norm_num

/-! ## Distance from exact arithmetic -/

theorem simplex_at (ft : Feat) (r : Range ℝ) (off seed : I32) (q : Fin 2 → ℝ) (hq : ∀ i, |q i| ≤ 2 ^ 28) :
    Simplex.simplex ft r 1 off seed [q 0, q 1] =
        r.scaleOutput (gridNoise (Lattice.gradDot ft) (seed + off) (1 / 2) q) (-0.0261208079755306243896484375) 0.0261208079755306243896484375 ∧
      |gridNoise (Lattice.gradDot ft) (seed + off) (1 / 2) q| ≤ 0.0261208079755306243896484375 := by
  have hr : ∀ i, Lattice.InRange (Simplex.skewed q i) := fun i => (Simplex.safe_of_bound (.inl rfl) q hq i).1
  have e := Simplex.simplex2_noise (Lattice.gradDot ft) (seed + off) q hr
  constructor
  · rw [← e, ← Simplex.ofFn2]
    have hs := Simplex.scale_pos 1 q
    simp only [div_one] at hs
    simp only [Simplex.simplex, hs, List.length_ofFn]
    norm_num [Simplex.simplexBound]
  · obtain ⟨rank, hs, he⟩ := Simplex.simplexRaw_sum (.inl rfl) (Lattice.gradDot ft) (seed + off) q hr
    rw [← e, he]
    have := Simplex.simplex_abs_le (.inl rfl) ft (seed + off) q rank hs
    norm_num [Simplex.simplexPeak] at this ⊢
    exact this

/-- **C73**: let the scaled coordinates the processor computes be at most `2^m` in size, `m ≤ 27`.  There is a position within `6 / 2^25 * 2^m` of them, per axis (0.00000018 of a grid cell next to the origin,
0.0002 at a distance of 1000 cells), such that on every SIMD level the output is within `1640 / 2^25` (0.00005), in units of a power of two that bounds the output range, of the exact Simplex noise there. -/
theorem C73_simplex2_near_exact {e : ℤ} (ops : List (SetOp ℝ)) (h : OnGrid e ops) {k : ℤ} (hk : -100 ≤ k) (bl : |lastMin ops| ≤ 2 ^ k) (bh : |lastMax ops| ≤ 2 ^ k)
    (scale x y : ℝ) {m : ℕ} (hm : m ≤ 27) (hx : |mul x (frequency scale)| ≤ 2 ^ m) (hy : |mul y (frequency scale)| ≤ 2 ^ m) :
    ∃ qx qy : ℝ, |qx - mul x (frequency scale)| ≤ 6 / 2 ^ 25 * 2 ^ m ∧ |qy - mul y (frequency scale)| ≤ 6 / 2 ^ 25 * 2 ^ m ∧
      (|qx| ≤ 2 ^ 28 ∧ |qy| ≤ 2 ^ 28) ∧
      ∀ (ft : Feat) (L : Level) (off seed : I32),
        |simplex2D ft L (rangeAfterF ops) scale off seed x y - Simplex.simplex ft (rangeAfter ops) 1 off seed [qx, qy]| ≤ 1640 / 2 ^ 25 * 2 ^ k := by
  obtain ⟨q, q0, q1, hq⟩ := simplexRaw_err hm hx hy
  have hU : (1 : ℝ) / 2 ^ 25 = U := rfl
  have e6 : (6 : ℝ) / 2 ^ 25 = 6 * U := by rw [← hU]; ring
  have hu := U_pos
  have hs := U_small
  have hM : (0 : ℝ) < 2 ^ m := by positivity
  have hM2 : (2 : ℝ) ^ m ≤ 2 ^ 27 := pow_le_pow_right₀ (by norm_num) hm
  have hUM : U * 2 ^ m ≤ 1 / 10000000 * 2 ^ m := mul_le_mul_of_nonneg_right hs hM.le
  have far : ∀ a b : ℝ, |a| ≤ 2 ^ m → |b - a| ≤ 6 * U * 2 ^ m → |b| ≤ 2 ^ 28 := by
    intro a b ha hb
    have ha' := abs_le.mp ha
    have hb' := abs_le.mp hb
    rw [abs_le]; constructor <;> norm_num at hM2 ⊢ <;> linarith
  have f0 := far _ _ hx q0
  have f1 := far _ _ hy q1
  refine ⟨q 0, q 1, by rw [e6]; exact q0, by rw [e6]; exact q1, ⟨f0, f1⟩, fun ft L off seed => ?_⟩
  obtain ⟨hra, hmin, hmax⟩ := C58_setters_exact ops h
  have hsc : (rangeAfterF ops).rangeScale = lastMax ops - lastMin ops := by rw [← hmax, hmin]; ring
  have hr : rangeAfterF ops = ⟨lastMin ops, lastMax ops - lastMin ops⟩ := by rw [← hsc, ← hmin]
  obtain ⟨he, hb⟩ := simplex_at ft (rangeAfter ops) off seed q (by intro i; fin_cases i; exacts [f0, f1])
  have hpk := two_zpow_pos k
  rw [he, ← hra, hr]
  unfold simplex2D Range.scaleOutput
  refine (scaleS_err L hk bl bh (by norm_num) (by norm_num) ⟨7011751, -27, by norm_num, by norm_num, by norm_num⟩ hb (hq ft L (seed + off)) (by linarith)).trans ?_
  refine mul_le_mul_of_nonneg_right ?_ hpk.le
  rw [← hU]; norm_num

/-- Non-vacuity: the default range, near the position (3.7, -2.2). -/
example : ∃ qx qy : ℝ, |qx - mul (fl 3.7) (frequency 1)| ≤ 0.0000008 ∧ |qy - mul (fl (-2.2)) (frequency 1)| ≤ 0.0000008 ∧
    ∀ (ft : Feat) (L : Level) (off seed : I32), |simplex2D ft L Range.init 1 off seed (fl 3.7) (fl (-2.2)) - Simplex.simplex ft Range.init 1 off seed [qx, qy]| ≤ 0.00005 := by
  have r4 : Rep 4 := ⟨1, 2, by norm_num, by norm_num, by norm_num⟩
  have r4' : Rep (-4) := ⟨-1, 2, by norm_num, by norm_num, by norm_num⟩
  have b : ∀ z : ℝ, |z| ≤ 4 → |fl z| ≤ 4 := fun z hz => abs_le.mpr ⟨le_fl r4' (abs_le.mp hz).1, fl_le r4 (abs_le.mp hz).2⟩
  have f : frequency 1 = 1 := by
    unfold frequency; rw [div_one]; exact fl_rep ⟨1, 0, by norm_num, by norm_num, by norm_num⟩
  have b3 : ∀ z : ℝ, |z| ≤ 4 → |mul (fl z) (frequency 1)| ≤ 2 ^ 2 := by
    intro z hz
    rw [f]; unfold mul; rw [mul_one]
    exact (b _ (b z hz)).trans (by norm_num)
  obtain ⟨qx, qy, h1, h2, -, h3⟩ := C73_simplex2_near_exact (e := 0) [] ⟨by norm_num, by norm_num, by simp⟩ (k := 0) (by norm_num) (by norm_num [lastMin]) (by norm_num [lastMax]) 1 (fl 3.7) (fl (-2.2))
    (m := 2) (by norm_num) (b3 _ (by norm_num [abs_of_pos])) (b3 _ (by norm_num [abs_of_neg]))
  exact ⟨qx, qy, h1.trans (by norm_num), h2.trans (by norm_num), fun ft L off seed => (h3 ft L off seed).trans (by norm_num)⟩

/-- **C73**: compared with the exact noise at the scaled position itself the error is at most `(1640 + 204 * 2^m) / 2^25` in the same units: 0.00006 next to the origin, and in proportion to the distance from it
0.0063 at 1000 cells (the noise changes by at most 24 half ranges per cell, C74). -/
theorem C73_simplex2_forward {e : ℤ} (ops : List (SetOp ℝ)) (h : OnGrid e ops) {k : ℤ} (hk : -100 ≤ k) (bl : |lastMin ops| ≤ 2 ^ k) (bh : |lastMax ops| ≤ 2 ^ k)
    (scale x y : ℝ) {m : ℕ} (hm : m ≤ 27) (hx : |mul x (frequency scale)| ≤ 2 ^ m) (hy : |mul y (frequency scale)| ≤ 2 ^ m) (ft : Feat) (L : Level) (off seed : I32) :
    |simplex2D ft L (rangeAfterF ops) scale off seed x y - Simplex.simplex ft (rangeAfter ops) 1 off seed [mul x (frequency scale), mul y (frequency scale)]| ≤
      (1640 + 204 * 2 ^ m) / 2 ^ 25 * 2 ^ k := by
  obtain ⟨qx, qy, q0, q1, ⟨f0, f1⟩, hq⟩ := C73_simplex2_near_exact ops h hk bl bh scale x y hm hx hy
  have hM2 : (2 : ℝ) ^ m ≤ 2 ^ 28 := pow_le_pow_right₀ (by norm_num) (by omega)
  have hM : (0 : ℝ) < 2 ^ m := by positivity
  generalize mul x (frequency scale) = px at *
  generalize mul y (frequency scale) = py at *
  have a := abs_le.mp (hq ft L off seed)
  have r := Simplex.C74_simplex2_rate ft ops 1 off seed ![qx, qy] ![px, py] (by intro i; rw [div_one]; fin_cases i; exacts [f0, f1])
    (by intro i; rw [div_one]; fin_cases i; exacts [hx.trans hM2, hy.trans hM2])
  have l : ∀ a b : ℝ, List.ofFn ![a, b] = [a, b] := by intro a b; simp [List.ofFn_succ]
  rw [l, l, abs_one, div_one] at r
  have hpk := two_zpow_pos k
  generalize (2 : ℝ) ^ m = M at *
  have hd : √(Simplex.distSq ![qx, qy] ![px, py]) ≤ 8.5 / 2 ^ 25 * M := by
    rw [Real.sqrt_le_left (by positivity)]
    simp only [Simplex.distSq, Fin.sum_univ_two, Matrix.cons_val_zero, Matrix.cons_val_one]
    have s0 := sq_le_sq' (abs_le.mp q0).1 (abs_le.mp q0).2
    have s1 := sq_le_sq' (abs_le.mp q1).1 (abs_le.mp q1).2
    have : 0 ≤ M ^ 2 := sq_nonneg _
    norm_num at s0 s1 ⊢
    nlinarith
  have hw : |lastMax ops - lastMin ops| / 2 ≤ 2 ^ k := by
    have := abs_sub (lastMax ops) (lastMin ops)
    linarith
  have hr := r.trans (mul_le_mul (mul_le_mul_of_nonneg_left hw (by norm_num)) hd (Real.sqrt_nonneg _) (by positivity))
  have hr' := abs_le.mp hr
  have e1 : (1640 + 204 * M) / 2 ^ 25 * 2 ^ k = 1640 / 2 ^ 25 * 2 ^ k + 24 * 2 ^ k * (8.5 / 2 ^ 25 * M) := by ring
  rw [e1, abs_le]
  constructor <;> linarith

/-- Non-vacuity: the default range, scale 1, at (3, -2). -/
example (ft : Feat) (L : Level) (off seed : I32) : |simplex2D ft L Range.init 1 off seed 3 (-2) - Simplex.simplex ft Range.init 1 off seed [3, -2]| ≤ 0.000075 := by
  have f : frequency 1 = 1 := by
    unfold frequency; rw [div_one]; exact fl_rep ⟨1, 0, by norm_num, by norm_num, by norm_num⟩
  have m3 : mul 3 (frequency 1) = 3 := by rw [f]; unfold mul; rw [mul_one]; exact fl_rep ⟨3, 0, by norm_num, by norm_num, by norm_num⟩
  have m2 : mul (-2) (frequency 1) = -2 := by rw [f]; unfold mul; rw [mul_one]; exact fl_rep ⟨-2, 0, by norm_num, by norm_num, by norm_num⟩
  have := C73_simplex2_forward (e := 0) [] ⟨by norm_num, by norm_num, by simp⟩ (k := 0) (by norm_num) (by norm_num [lastMin]) (by norm_num [lastMax]) 1 3 (-2)
    (m := 2) (by norm_num) (by rw [m3]; norm_num [abs_of_pos]) (by rw [m2]; norm_num [abs_of_neg]) ft L off seed
  rw [m3, m2] at this
  exact this.trans (by norm_num)

/-! ## SIMD levels -/

/-- **C73**: the outputs of two processors, whatever their SIMD levels, differ by at most `3280 / 2^25` (less than 0.0001) in units of a power of two that bounds the range. -/
theorem C73_simplex2_levels {e : ℤ} (ops : List (SetOp ℝ)) (h : OnGrid e ops) {k : ℤ} (hk : -100 ≤ k) (bl : |lastMin ops| ≤ 2 ^ k) (bh : |lastMax ops| ≤ 2 ^ k)
    (scale x y : ℝ) (hx : |mul x (frequency scale)| ≤ 2 ^ 27) (hy : |mul y (frequency scale)| ≤ 2 ^ 27) (ft ft' : Feat) (L L' : Level) (off seed : I32) :
    |simplex2D ft L (rangeAfterF ops) scale off seed x y - simplex2D ft' L' (rangeAfterF ops) scale off seed x y| ≤ 3280 / 2 ^ 25 * 2 ^ k := by
  obtain ⟨qx, qy, -, -, -, hq⟩ := C73_simplex2_near_exact ops h hk bl bh scale x y le_rfl hx hy
  have a := abs_le.mp (hq ft L off seed)
  have b := abs_le.mp (hq ft' L' off seed)
  have e1 : Simplex.simplex ft' (rangeAfter ops) 1 off seed [qx, qy] = Simplex.simplex ft (rangeAfter ops) 1 off seed [qx, qy] := by
    unfold Simplex.simplex
    rw [show Lattice.gradDot ft' = Lattice.gradDot ft from funext fun h => funext fun l => gradDot_level ft' ft h l]
  rw [e1] at b
  have e2 : (3280 : ℝ) / 2 ^ 25 * 2 ^ k = 2 * (1640 / 2 ^ 25 * 2 ^ k) := by ring
  rw [e2, abs_le]
  constructor <;> linarith

/-! ## Range -/

/-- **C73**: 2D Simplex noise leaves the range set by the user by at most 0.00005 of a power of two that bounds the limits. -/
theorem C73_simplex2_range {e : ℤ} (ops : List (SetOp ℝ)) (h : OnGrid e ops) {k : ℤ} (hk : -100 ≤ k) (bl : |lastMin ops| ≤ 2 ^ k) (bh : |lastMax ops| ≤ 2 ^ k)
    (scale x y : ℝ) (hx : |mul x (frequency scale)| ≤ 2 ^ 27) (hy : |mul y (frequency scale)| ≤ 2 ^ 27) (ft : Feat) (L : Level) (off seed : I32) :
    min (lastMin ops) (lastMax ops) - 1640 / 2 ^ 25 * 2 ^ k ≤ simplex2D ft L (rangeAfterF ops) scale off seed x y ∧
      simplex2D ft L (rangeAfterF ops) scale off seed x y ≤ max (lastMin ops) (lastMax ops) + 1640 / 2 ^ 25 * 2 ^ k := by
  obtain ⟨qx, qy, -, -, ⟨f0, f1⟩, hq⟩ := C73_simplex2_near_exact ops h hk bl bh scale x y le_rfl hx hy
  have a := abs_le.mp (hq ft L off seed)
  have b := Simplex.C60_simplex_range (.inl rfl) ft ops 1 off seed ![qx, qy] (by
    intro i; rw [div_one]; fin_cases i; exacts [f0, f1])
  have e1 : List.ofFn ![qx, qy] = [qx, qy] := by simp [List.ofFn_succ]
  rw [e1] at b
  constructor <;> linarith [b.1, b.2]

/-- Non-vacuity of both: range 0 to 255, everywhere within 2^26 of the origin with the default scale 100. -/
example (ft : Feat) (L : Level) (off seed : I32) (x y : ℝ) (hx : |x| ≤ 2 ^ 26) (hy : |y| ≤ 2 ^ 26) :
    -0.013 ≤ simplex2D ft L (rangeAfterF [.min 0, .max 255]) 100 off seed x y ∧ simplex2D ft L (rangeAfterF [.min 0, .max 255]) 100 off seed x y ≤ 255.013 := by
  have hg : OnGrid 0 [SetOp.min (0 : ℝ), .max 255] := by
    refine ⟨by norm_num, by norm_num, ?_⟩
    intro op hop
    simp at hop
    rcases hop with rfl | rfl
    · exact ⟨0, by norm_num, by norm_num [argOf]⟩
    · exact ⟨255, by norm_num, by norm_num [argOf]⟩
  have r1 : Rep (1 : ℝ) := ⟨1, 0, by norm_num, by norm_num, by norm_num⟩
  have r26 : Rep ((2 : ℝ) ^ 27) := ⟨1, 27, by norm_num, by norm_num, by norm_num⟩
  have r26' : Rep (-(2 : ℝ) ^ 27) := ⟨-1, 27, by norm_num, by norm_num, by norm_num⟩
  have fq : frequency 100 ∈ Set.Icc (0 : ℝ) 1 := by
    unfold frequency
    exact ⟨le_fl rep_zero (by norm_num), fl_le r1 (by norm_num)⟩
  have b : ∀ z : ℝ, |z| ≤ 2 ^ 26 → |mul z (frequency 100)| ≤ 2 ^ 27 := by
    intro z hz
    have hp : |z * frequency 100| ≤ 2 ^ 27 := by
      rw [abs_mul, abs_of_nonneg fq.1]
      have := mul_le_mul hz fq.2 fq.1 (by norm_num)
      norm_num at this ⊢; linarith
    unfold mul
    exact abs_le.mpr ⟨le_fl r26' (abs_le.mp hp).1, fl_le r26 (abs_le.mp hp).2⟩
  have := C73_simplex2_range _ hg (k := 8) (by norm_num) (by norm_num [lastMin]) (by norm_num [lastMax]) 100 x y (b x hx) (b y hy) ft L off seed
  have e1 : lastMin [SetOp.min (0 : ℝ), .max 255] = 0 := by simp [lastMin]
  have e2 : lastMax [SetOp.min (0 : ℝ), .max 255] = 255 := by simp [lastMax]
  rw [e1, e2] at this
  norm_num at this ⊢
  constructor <;> linarith [this.1, this.2]

end
end FastNoise.F32
