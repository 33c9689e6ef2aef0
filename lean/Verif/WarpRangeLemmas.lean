import Verif.WarpRange
import Verif.WarpOuter
import Verif.WarpRangeSpec
import Verif.WarpSimplexProps
import Verif.SimplexRangeProps
/-! # Lemmas on the length of warp vectors -/
namespace FastNoise.WarpRange
open FastNoise.Hash FastNoise.Num FastNoise.Basic FastNoise.Gradient FastNoise.Simplex FastNoise.WarpGrad FastNoise.WarpSimplex FastNoise.Fractal Matrix

noncomputable section

variable {n : Nat}

/-! ## Lengths -/

/-- Euclidean length. -/
def nrm (w : Fin n → ℝ) : ℝ := √(∑ k, w k ^ 2)

theorem nrm_eq (w : Fin n → ℝ) : nrm w = ‖WithLp.toLp 2 w‖ := by
  rw [EuclideanSpace.norm_eq]; simp [nrm]
theorem nrm_nonneg (w : Fin n → ℝ) : 0 ≤ nrm w := Real.sqrt_nonneg _
theorem nrm_sum_le {ι : Type*} (s : Finset ι) (f : ι → Fin n → ℝ) : nrm (∑ i ∈ s, f i) ≤ ∑ i ∈ s, nrm (f i) := by
  simp only [nrm_eq, WithLp.toLp_sum]
  exact norm_sum_le _ _
theorem nrm_smul (a : ℝ) (w : Fin n → ℝ) : nrm (a • w) = |a| * nrm w := by
  simp only [nrm_eq, WithLp.toLp_smul, norm_smul, Real.norm_eq_abs]
theorem nrm_sq (w : Fin n → ℝ) : nrm w ^ 2 = ∑ k, w k ^ 2 := Real.sq_sqrt (by positivity)
theorem nrm_le_of_sq {w : Fin n → ℝ} {r : ℝ} (hr : 0 ≤ r) (h : ∑ k, w k ^ 2 ≤ r ^ 2) : nrm w ≤ r := Real.sqrt_le_iff.mpr ⟨hr, h⟩
theorem nrm_unskew (u : Fin n → ℝ) : nrm (unskew u) = √(Q u) := by rw [nrm, unskew_sq]

theorem dot_self (w : Fin n → ℝ) : w ⬝ᵥ w = ∑ k, w k ^ 2 := by simp [dotProduct, sq]
theorem dot_le (a b : Fin n → ℝ) : |a ⬝ᵥ b| ≤ nrm a * nrm b := by
  rw [← Real.sqrt_sq_eq_abs, nrm, nrm, ← Real.sqrt_mul (by positivity)]
  refine Real.sqrt_le_sqrt ?_
  simpa [dotProduct] using Finset.sum_mul_sq_le_sq_mul_sq Finset.univ a b

theorem nrm_mirror (w : Fin 3 → ℝ) : nrm (mirror w) = nrm w := by
  unfold nrm; congr 1
  simp only [mirror, Fin.sum_univ_three]; push_cast; ring
theorem nrm_rampArg (w : Fin n → ℝ) : nrm (rampArg w) = nrm w := by
  unfold rampArg
  split_ifs with h
  · subst h; exact nrm_mirror w
  · rfl

/-- The matrices of hashes (31 bits) stretch by at most `c`. -/
def Stretch (M : I32 → Matrix (Fin n) (Fin n) ℝ) (c : ℝ) : Prop := ∀ h : I32, h.msb = false → ∀ w, nrm (M h *ᵥ w) ≤ c * nrm w

theorem stretch_of_orth {M : I32 → Matrix (Fin n) (Fin n) ℝ} {c : ℝ} (hc : 0 < c) (h : ∀ k, M k * (M k)ᵀ = c • 1) : Stretch M √c := by
  intro k _ w
  have h1 : (M k)ᵀ * M k = c • 1 := by
    have : (c⁻¹ • M k) * (M k)ᵀ = 1 := by rw [smul_mul_assoc, h k, smul_smul, inv_mul_cancel₀ hc.ne', one_smul]
    have := mul_eq_one_comm.mp this
    rw [mul_smul_comm] at this
    have := congrArg (c • ·) this
    simpa [smul_smul, mul_inv_cancel₀ hc.ne'] using this
  refine nrm_le_of_sq (by have := nrm_nonneg w; positivity) ?_
  rw [mul_pow, Real.sq_sqrt hc.le, nrm_sq, ← dot_self, ← dot_self, dotProduct_mulVec, vecMul_mulVec, h1, vecMul_smul, vecMul_one, smul_dotProduct, smul_eq_mul]

theorem stretch_of_outer {a b : I32 → Fin n → ℝ} {c d : ℝ} (ha : ∀ h, nrm (a h) ≤ c) (hb : ∀ h, nrm (b h) ≤ d) : Stretch (fun h => vecMulVec (a h) (b h)) (c * d) := by
  intro h _ w
  have e : vecMulVec (a h) (b h) *ᵥ w = (b h ⬝ᵥ w) • a h := by
    rw [vecMulVec_mulVec]; funext k; simp [mul_comm]
  show nrm (vecMulVec (a h) (b h) *ᵥ w) ≤ _
  rw [e, nrm_smul]
  calc |b h ⬝ᵥ w| * nrm (a h) ≤ (d * nrm w) * c := mul_le_mul ((dot_le _ _).trans (mul_le_mul_of_nonneg_right (hb h) (nrm_nonneg w))) (ha h) (nrm_nonneg _)
        (mul_nonneg ((nrm_nonneg _).trans (hb h)) (nrm_nonneg w))
    _ = _ := by ring

theorem stretch_turn2 : Stretch turnMatrix2 √2 := stretch_of_orth (by norm_num) fun k => (C45_turn2 k).1
theorem stretch_turn3 : Stretch turnMatrix3 √6 := stretch_of_orth (by norm_num) fun k => C45_turn3 k

theorem nrm_simplex2 (i : Fin 12) : nrm (vec2 (Gradient.simplex2 i)) = 2 := by
  have h3 : √(3 : ℝ) ^ 2 = 3 := Real.sq_sqrt (by norm_num)
  rw [nrm, show (2 : ℝ) = √4 by rw [sqrt4]]
  congr 1
  fin_cases i <;> simp [vec2, Gradient.simplex2, Fin.sum_univ_two, h3] <;> norm_num
theorem nrm_edges3 (i : Fin 12) : nrm (WarpGrad.vec3 (edges3 i)) = √2 := by
  rw [nrm]; congr 1
  fin_cases i <;> simp [WarpGrad.vec3, edges3, common3, Fin.sum_univ_three] <;> norm_num

theorem stretch_outer2 : Stretch outerMatrix2 4 := by
  have := stretch_of_outer (a := fun h => vec2 (Gradient.simplex2 (secondOf12 h))) (b := fun h => vec2 (Gradient.simplex2 (firstOf12 h))) (fun h => (nrm_simplex2 _).le) fun h => (nrm_simplex2 _).le
  norm_num at this; exact this

/-! ## Sums of contributions -/

theorem nrm_vecContribution {M : I32 → Matrix (Fin n) (Fin n) ℝ} {c : ℝ} (hM : Stretch M c) (seed : I32) (r2 : ℝ) (p : Fin n → ℝ) (v : Fin n → ℤ) :
    nrm (vecContribution M seed r2 p v) ≤ c * bell r2 fun i => skewed p i - v i := by
  rw [vecContribution, nrm_smul, abs_of_nonneg (by positivity), distSq_gridPoint, bell]
  have := hM (gridHash seed v) (C25_mix_nonneg seed _) (rampArg fun i => p i - gridPoint v i)
  rw [nrm_rampArg, sub_gridPoint, nrm_unskew] at this
  calc _ ≤ max (r2 - Q fun i => skewed p i - v i) 0 ^ 4 * (c * √(Q fun i => skewed p i - v i)) := mul_le_mul_of_nonneg_left (by rw [sub_gridPoint]; exact this) (by positivity)
    _ = _ := by ring

theorem nrm_points_le {M : I32 → Matrix (Fin n) (Fin n) ℝ} {c : ℝ} (hn : n = 2 ∨ n = 3 ∨ n = 4) (hc : 0 ≤ c) (hM : Stretch M c) (seed : I32) (p : Fin n → ℝ) (s : Finset (Fin n → ℤ)) :
    nrm (∑ v ∈ s, vecContribution M seed (superRadiusSq n) p v) ≤ c * superBell n := by
  refine (nrm_sum_le _ _).trans ((Finset.sum_le_sum fun v _ => nrm_vecContribution hM seed _ p v).trans ?_)
  rw [← Finset.mul_sum]
  exact mul_le_mul_of_nonneg_left (bell_points_le hn p s) hc

theorem nrm_corners_le {M : I32 → Matrix (Fin n) (Fin n) ℝ} {c : ℝ} (hn : n = 2 ∨ n = 3 ∨ n = 4) (hc : 0 ≤ c) (hM : Stretch M c) (seed : I32) (p : Fin n → ℝ)
    (rank : Equiv.Perm (Fin n)) (hs : ∀ i j, rank i < rank j → frac p j ≤ frac p i) :
    nrm (∑ k : Fin (n + 1), vecContribution M seed (simplexRadiusSq n) p (corner (base p) rank k)) ≤ c * simplexBell n := by
  refine (nrm_sum_le _ _).trans ((Finset.sum_le_sum fun v _ => nrm_vecContribution hM seed _ p _).trans ?_)
  rw [← Finset.mul_sum]
  exact mul_le_mul_of_nonneg_left (bell_corners_le hn p rank hs) hc

/-! ## The vectors of the code -/

theorem simplexVec_corners (hn : n = 2 ∨ n = 3 ∨ n = 4) (ft : Feat) (s : Scheme) (seed : I32) (p : Fin n → ℝ) (h : Safe p) :
    ∃ rank : Equiv.Perm (Fin n), (∀ i j, rank i < rank j → frac p j ≤ frac p i) ∧
      simplexVec ft s seed p = ∑ k : Fin (n + 1), vecContribution (matrices ft s n) seed (simplexRadiusSq n) p (corner (base p) rank k) := by
  obtain ⟨rank, hs, he⟩ := simplexRaw_sums hn seed p fun i => (h i).1
  refine ⟨rank, hs, ?_⟩
  funext k
  simp only [simplexVec, he, contribution_mat, Finset.sum_apply]

theorem gridVector_near (M : I32 → Matrix (Fin n) (Fin n) ℝ) (seed : I32) (p : Fin n → ℝ) :
    gridVector M seed (superRadiusSq n) p = ∑ v ∈ nearPoints p, vecContribution M seed (superRadiusSq n) p v := by
  funext k
  rw [← gridNoise_mat, gridNoise_eq (matRamp M k) seed (superRadiusSq n) p (nearPoints p)]
  · simp only [contribution_mat, Finset.sum_apply]
  · intro v hv; exact far_points p v hv

/-! ## Outer products -/

/-- Contributions with outer product matrices: a ramp times a vector. -/
theorem outer_contribution {a b : I32 → Fin n → ℝ} (hb : ∀ h, ∀ u : Fin n → ℝ, b h ⬝ᵥ rampArg (unskew u) = ∑ i, slope (b h) i * u i) (seed : I32) (r2 : ℝ) (p : Fin n → ℝ) (v : Fin n → ℤ) :
    vecContribution (fun h => vecMulVec (a h) (b h)) seed r2 p v = bump r2 (fun i => skewed p i - v i) (b (gridHash seed v)) • a (gridHash seed v) := by
  rw [vecContribution, distSq_gridPoint, sub_gridPoint, bump, ← hb]
  have e : ∀ h w, vecMulVec (a h) (b h) *ᵥ w = (b h ⬝ᵥ w) • a h := by
    intro h w; rw [vecMulVec_mulVec]; funext k; simp [mul_comm]
  rw [e, smul_smul]

theorem dot_slope (g u : Fin n → ℝ) : g ⬝ᵥ rampArg (unskew u) = ∑ i, slope g i * u i := by
  unfold rampArg
  split_ifs with h
  · subst h; exact sum_slope3 g u
  · exact sum_slope g u h

/-- A signed gradient that points towards the position. -/
theorem abs_bump {P : (Fin n → ℝ) → Prop} (hP : Simplex.Symmetric P) (r2 : ℝ) (u : Fin n → ℝ) {g : Fin n → ℝ} (hg : P g) : ∃ g', P g' ∧ |bump r2 u g| = bump r2 u g' := by
  rcases le_total 0 (bump r2 u g) with h | h
  · exact ⟨g, hg, abs_of_nonneg h⟩
  · exact ⟨-g, hP.2 _ hg, by rw [bump_neg, abs_of_nonpos h]⟩

theorem outer_sum_le {ι : Type*} {a b : I32 → Fin n → ℝ} {P : (Fin n → ℝ) → Prop} (hP : Simplex.Symmetric P) (hb : ∀ h, P (b h)) {c peak : ℝ} (hc : 0 ≤ c)
    (f : (Fin n → ℝ) → Fin n → ℝ) (hf : ∀ (s : Finset ι) (w : ι → Fin n → ℝ), f (∑ i ∈ s, w i) = ∑ i ∈ s, f (w i)) (hf' : ∀ (t : ℝ) w, f (t • w) = t • f w) (ha : ∀ h, nrm (f (a h)) ≤ c) (seed : I32) (r2 : ℝ) (p : Fin n → ℝ)
    (s : Finset ι) (v : ι → Fin n → ℤ) (hs : ∀ G : ι → Fin n → ℝ, (∀ i, P (G i)) → ∑ i ∈ s, bump r2 (fun k => skewed p k - v i k) (G i) ≤ peak) :
    nrm (f (∑ i ∈ s, vecContribution (fun h => vecMulVec (a h) (b h)) seed r2 p (v i))) ≤ c * peak := by
  choose G hG he using fun i : ι => abs_bump hP r2 (fun k => skewed p k - v i k) (hb (gridHash seed (v i)))
  rw [hf]
  refine (nrm_sum_le _ _).trans ?_
  calc ∑ i ∈ s, nrm (f (vecContribution (fun h => vecMulVec (a h) (b h)) seed r2 p (v i)))
      ≤ ∑ i ∈ s, c * bump r2 (fun k => skewed p k - v i k) (G i) := Finset.sum_le_sum fun i _ => by
        rw [outer_contribution (fun h u => dot_slope _ _), hf', nrm_smul, he, mul_comm]
        refine mul_le_mul_of_nonneg_right (ha _) ?_
        rw [← he]; exact abs_nonneg _
    _ ≤ _ := by
        rw [← Finset.mul_sum]
        exact mul_le_mul_of_nonneg_left (hs G hG) hc

theorem nrm_simplex4 (i : Fin 20) : nrm (WarpGrad.vec4 (Gradient.simplex4 i)) = √2 := by
  have h5 : √(5 : ℝ) * √5 = 5 := Real.mul_self_sqrt (by norm_num)
  have h0 : √(5 : ℝ) + 1 ≠ 0 := by positivity
  have e : 1 / (√(5 : ℝ) + 1) = (√5 - 1) / 4 := by field_simp; linarith
  rw [nrm]; congr 1
  fin_cases i <;> simp only [WarpGrad.vec4, Gradient.simplex4, e, Fin.sum_univ_four] <;> simp <;> nlinarith

theorem isGrad_edges3 (i : Fin 12) : IsGrad (WarpGrad.vec3 (edges3 i)) := by
  fin_cases i <;> simp only [WarpGrad.vec3, edges3, common3, IsGrad, odd] <;>
    first
    | (refine ⟨0, by simp, fun j hj => ?_⟩; fin_cases j <;> simp at hj ⊢; done)
    | (refine ⟨1, by simp, fun j hj => ?_⟩; fin_cases j <;> simp at hj ⊢; done)
    | (refine ⟨2, by simp, fun j hj => ?_⟩; fin_cases j <;> simp at hj ⊢; done)

/-- The orientation step of DomainWarpSimplex in 3D stretches an edge midpoint to a length of at most √6. -/
theorem orient_edges3 (i : Fin 12) : nrm (orient (-1) .gradientOuterProduct (WarpGrad.vec3 (edges3 i))) ≤ √6 := by
  refine Real.sqrt_le_sqrt ?_
  fin_cases i <;> simp [orient, WarpGrad.vec3, edges3, common3, Fin.sum_univ_three] <;> norm_num

/-- Lengths after the bounding constant and the axis scales. -/
theorem moved_le {b A amp r : ℝ} (hb : 0 ≤ b) (hA : 0 ≤ A) (axisScale : Nat → ℝ) (ha : ∀ k, |axisScale k| ≤ A) (x w : Fin n → ℝ) (hw : b * nrm w ≤ r) :
    distance x (fun k => x k + amp * (b * axisScale k * w k)) ≤ r * A * |amp| := by
  have h0 := nrm_nonneg w
  have h1 : nrm (fun k : Fin n => amp * (b * axisScale k * w k)) ≤ |amp| * (b * (A * nrm w)) := by
    refine nrm_le_of_sq (by positivity) ?_
    have : (|amp| * (b * (A * nrm w))) ^ 2 = ∑ k, (amp * (b * A)) ^ 2 * w k ^ 2 := by
      rw [← Finset.mul_sum, ← nrm_sq, mul_pow, sq_abs]; ring
    rw [this]
    refine Finset.sum_le_sum fun k _ => ?_
    have hk : axisScale k ^ 2 ≤ A ^ 2 := sq_le_sq' (by have := abs_le.mp (ha k); linarith) (abs_le.mp (ha k)).2
    have := mul_le_mul_of_nonneg_left hk (sq_nonneg (amp * b * w k))
    nlinarith
  have e : distance x (fun k => x k + amp * (b * axisScale k * w k)) = nrm fun k : Fin n => amp * (b * axisScale k * w k) := by
    simp [distance, nrm]
  rw [e]
  refine h1.trans ?_
  calc |amp| * (b * (A * nrm w)) = (b * nrm w) * (A * |amp|) := by ring
    _ ≤ r * (A * |amp|) := mul_le_mul_of_nonneg_right hw (by positivity)
    _ = _ := by ring

end
end FastNoise.WarpRange
