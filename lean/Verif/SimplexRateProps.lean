import Verif.SimplexLipschitz
import Verif.SimplexProps
import Verif.BasicProps
/-!
# C74: 2D Simplex noise and 2D and 3D SuperSimplex noise change at a bounded rate

C44 says that these noises are continuous (and that Simplex noise in 3D and 4D and SuperSimplex noise in 4D are not: they jump, so no such bound exists for them).  Here: how fast they can change.
-/
namespace FastNoise.Simplex
open FastNoise.Hash FastNoise.Num FastNoise.Basic FastNoise.Gradient

noncomputable section

variable {n : Nat}

theorem distSq_scaled (scale : ℝ) (x y : Fin n → ℝ) : √(distSq (fun i => x i / scale) fun i => y i / scale) = √(distSq x y) / |scale| := by
  have : distSq (fun i => x i / scale) (fun i => y i / scale) = distSq x y / scale ^ 2 := by
    unfold distSq
    rw [div_eq_mul_inv, Finset.sum_mul]
    exact Finset.sum_congr rfl fun i _ => by ring
  rw [this, Real.sqrt_div' _ (sq_nonneg _), Real.sqrt_sq_eq_abs]

theorem scaled_rate (ops : List (SetOp ℝ)) {b c v w D : ℝ} (hb : 0 < b) (h : |v - w| ≤ c * b * D) :
    |(rangeAfter ops).scaleOutput v (-b) b - (rangeAfter ops).scaleOutput w (-b) b| ≤ c * (|lastMax ops - lastMin ops| / 2) * D := by
  obtain ⟨-, -, e, -⟩ := C24_output_range ops (-b) b (by linarith)
  rw [e, e]
  have e1 : lastMin ops + (v - -b) / (b - -b) * (lastMax ops - lastMin ops) - (lastMin ops + (w - -b) / (b - -b) * (lastMax ops - lastMin ops)) =
      (v - w) * ((lastMax ops - lastMin ops) / (2 * b)) := by field_simp; ring
  rw [e1, abs_mul, abs_div, abs_of_pos (by linarith : 0 < 2 * b)]
  refine (mul_le_mul_of_nonneg_right h (by positivity)).trans (le_of_eq ?_)
  field_simp

/-- **C74**: between two positions 2D Simplex noise changes by at most 24 half output ranges per feature size of distance. -/
theorem C74_simplex2_rate (ft : Feat) (ops : List (SetOp ℝ)) (scale : ℝ) (seedOffset seed : I32) (x y : Fin 2 → ℝ) (hx : Fits scale x) (hy : Fits scale y) :
    |simplex ft (rangeAfter ops) scale seedOffset seed (List.ofFn x) - simplex ft (rangeAfter ops) scale seedOffset seed (List.ofFn y)| ≤
      24 * (|lastMax ops - lastMin ops| / 2) * (√(distSq x y) / |scale|) := by
  rw [C44_simplex2 ft _ scale seedOffset seed x hx, C44_simplex2 ft _ scale seedOffset seed y hy]
  refine scaled_rate ops (by norm_num [simplexPeak]) ?_
  have := gridNoise_lipschitz (by norm_num) _ (slope2 ft) reach_simplex2 (seed + seedOffset) (fun i => y i / scale) (fun i => x i / scale)
  rw [distSq_scaled] at this
  rw [show simplexRadiusSq 2 = 1 / 2 by simp [simplexRadiusSq]]
  refine this.trans (mul_le_mul_of_nonneg_right ?_ (by positivity))
  norm_num [simplexPeak]

/-- **C74**: 2D SuperSimplex noise by at most 19. -/
theorem C74_super2_rate (ft : Feat) (ops : List (SetOp ℝ)) (scale : ℝ) (seedOffset seed : I32) (x y : Fin 2 → ℝ) (hx : Fits scale x) (hy : Fits scale y) :
    |superSimplex ft (rangeAfter ops) scale seedOffset seed (List.ofFn x) - superSimplex ft (rangeAfter ops) scale seedOffset seed (List.ofFn y)| ≤
      19 * (|lastMax ops - lastMin ops| / 2) * (√(distSq x y) / |scale|) := by
  rw [C44_super2 ft _ scale seedOffset seed x hx, C44_super2 ft _ scale seedOffset seed y hy]
  refine scaled_rate ops (by norm_num [superPeak]) ?_
  have := gridNoise_lipschitz (by norm_num) _ (slope2 ft) reach_super2 (seed + seedOffset) (fun i => y i / scale) (fun i => x i / scale)
  rw [distSq_scaled] at this
  rw [show superRadiusSq 2 = 2 / 3 by simp [superRadiusSq]]
  refine this.trans (mul_le_mul_of_nonneg_right ?_ (by positivity))
  norm_num [superPeak]

/-- **C74**: 3D SuperSimplex noise by at most 41. -/
theorem C74_super3_rate (ft : Feat) (ops : List (SetOp ℝ)) (scale : ℝ) (seedOffset seed : I32) (x y : Fin 3 → ℝ) (hx : Fits scale x) (hy : Fits scale y) :
    |superSimplex ft (rangeAfter ops) scale seedOffset seed (List.ofFn x) - superSimplex ft (rangeAfter ops) scale seedOffset seed (List.ofFn y)| ≤
      41 * (|lastMax ops - lastMin ops| / 2) * (√(distSq x y) / |scale|) := by
  rw [C44_super3 ft _ scale seedOffset seed x hx, C44_super3 ft _ scale seedOffset seed y hy]
  refine scaled_rate ops (by norm_num [superPeak]) ?_
  have := gridNoise_lipschitz (by norm_num) _ (slope3 ft) reach_super3 (seed + seedOffset) (fun i => y i / scale) (fun i => x i / scale)
  rw [distSq_scaled] at this
  rw [show superRadiusSq 3 = 3 / 4 by simp [superRadiusSq], ← sub_div, abs_div, abs_of_pos (by norm_num : (0 : ℝ) < 16), div_le_iff₀ (by norm_num)]
  refine this.trans ?_
  rw [show 41 * superPeak 3 * (√(distSq x y) / |scale|) * 16 = 16 * 41 * superPeak 3 * (√(distSq x y) / |scale|) by ring]
  refine mul_le_mul_of_nonneg_right ?_ (by positivity)
  norm_num [superPeak]

/-- Non-vacuity: the default range and scale 100: positions one unit apart differ by at most 0.24, and 0.41 for 3D SuperSimplex noise. -/
example (ft : Feat) (off seed : I32) :
    |simplex ft (rangeAfter []) 100 off seed [3, 5] - simplex ft (rangeAfter []) 100 off seed [4, 5]| ≤ 0.24 ∧
    |superSimplex ft (rangeAfter []) 100 off seed [3, 5] - superSimplex ft (rangeAfter []) 100 off seed [4, 5]| ≤ 0.19 ∧
    |superSimplex ft (rangeAfter []) 100 off seed [3, 5, 7] - superSimplex ft (rangeAfter []) 100 off seed [4, 5, 7]| ≤ 0.41 := by
  have fits2 : ∀ a : ℝ, |a| ≤ 10 → Fits 100 ![a, 5] := by
    intro a ha i
    have := abs_le.mp ha
    fin_cases i <;> simp [abs_le] <;> constructor <;> linarith
  have fits3 : ∀ a : ℝ, |a| ≤ 10 → Fits 100 ![a, 5, 7] := by
    intro a ha i
    have := abs_le.mp ha
    fin_cases i <;> simp [abs_le] <;> constructor <;> linarith
  have h3 : |(3 : ℝ)| ≤ 10 := by norm_num [abs_of_pos]
  have h4 : |(4 : ℝ)| ≤ 10 := by norm_num [abs_of_pos]
  have l2 : ∀ a : ℝ, List.ofFn ![a, 5] = [a, 5] := by intro a; simp [List.ofFn_succ]
  have l3 : ∀ a : ℝ, List.ofFn ![a, 5, 7] = [a, 5, 7] := by intro a; simp [List.ofFn_succ]
  have a1 : |(100 : ℝ)| = 100 := by norm_num [abs_of_pos]
  have rg : |lastMax ([] : List (SetOp ℝ)) - lastMin []| / 2 = 1 := by norm_num [lastMax, lastMin, abs_of_pos]
  have d2 : √(distSq ![(3 : ℝ), 5] ![4, 5]) = 1 := by
    have : distSq ![(3 : ℝ), 5] ![4, 5] = 1 := by norm_num [distSq, Fin.sum_univ_two]
    rw [this, Real.sqrt_one]
  have d3 : √(distSq ![(3 : ℝ), 5, 7] ![4, 5, 7]) = 1 := by
    have : distSq ![(3 : ℝ), 5, 7] ![4, 5, 7] = 1 := by simp [distSq, Fin.sum_univ_three]; norm_num
    rw [this, Real.sqrt_one]
  refine ⟨?_, ?_, ?_⟩
  · have := C74_simplex2_rate ft [] 100 off seed ![3, 5] ![4, 5] (fits2 3 h3) (fits2 4 h4)
    rw [l2, l2, d2, a1, rg] at this
    exact this.trans (by norm_num)
  · have := C74_super2_rate ft [] 100 off seed ![3, 5] ![4, 5] (fits2 3 h3) (fits2 4 h4)
    rw [l2, l2, d2, a1, rg] at this
    exact this.trans (by norm_num)
  · have := C74_super3_rate ft [] 100 off seed ![3, 5, 7] ![4, 5, 7] (fits3 3 h3) (fits3 4 h4)
    rw [l3, l3, d3, a1, rg] at this
    exact this.trans (by norm_num)

end
end FastNoise.Simplex
