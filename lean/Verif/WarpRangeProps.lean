import Verif.WarpRangeLemmas
import Verif.WarpExceed
/-!
# C62: a simplex domain warp moves a position at most by the warp amplitude

The metadata of the nodes calls the warp amplitude the "maximum (euclidean) distance the position can be moved".  The specification is in `Verif.WarpRangeSpec`.  The bounds of the sums over the grid points
are optimisation problems; they are solved by a branch and bound search whose results, trees of boxes, are checked by programs (`Verif.NormCheck`, `Verif.RangeCheck`) that are proved right and run by Lean's kernel.
For DomainWarpGradient see `C29_euclidean_partial` and `C29_exceeds_documented_distance`.
-/
namespace FastNoise.WarpRange
open FastNoise.Hash FastNoise.Num FastNoise.Basic FastNoise.Gradient FastNoise.Simplex FastNoise.WarpGrad FastNoise.WarpSimplex FastNoise.Fractal Matrix

noncomputable section

variable {n : Nat}

theorem moves_simplex (hn : n = 2 ∨ n = 3 ∨ n = 4) (s : Scheme) (ft : Feat) (so : I32) (axisScale : Nat → ℝ) (A : ℝ) (hA : 0 ≤ A) (ha : ∀ k, |axisScale k| ≤ A) (scale : ℝ) (amplitude : Src) (seed : I32)
    (x : Fin n → ℝ) {r : ℝ} (h : simplexGain s n * nrm (orient (-1) s (simplexVec ft s (seed + so + so) fun i => x i / scale)) ≤ r) :
    MovesAtMost (domainWarp (simplexWarp s ft so axisScale) so scale amplitude) seed x (r * A * |amplitude seed (List.ofFn x)|) := by
  rw [← simplexBounding_gain hn] at h
  refine ⟨_, moved_le (b := simplexBounding s n) ?_ hA axisScale ha x _ h, fun source => ?_⟩
  · rw [simplexBounding_gain hn]; cases s <;> rcases hn with rfl | rfl | rfl <;> norm_num [simplexGain]
  · simp only [domainWarp, scale_pos]
    rw [simplexWarp_eq hn]

theorem moves_super (hn : n = 2 ∨ n = 3 ∨ n = 4) (s : Scheme) (ft : Feat) (so : I32) (axisScale : Nat → ℝ) (A : ℝ) (hA : 0 ≤ A) (ha : ∀ k, |axisScale k| ≤ A) (scale : ℝ) (amplitude : Src) (seed : I32)
    (x : Fin n → ℝ) {r : ℝ} (h : superGain s n * nrm (orient (-2 / 3) s (superVec ft s (seed + so) fun i => x i / scale)) ≤ r) :
    MovesAtMost (domainWarp (superSimplexWarp s ft axisScale) so scale amplitude) seed x (r * A * |amplitude seed (List.ofFn x)|) := by
  rw [← superBounding_gain hn] at h
  refine ⟨_, moved_le (b := superBounding s n) ?_ hA axisScale ha x _ h, fun source => ?_⟩
  · rw [superBounding_gain hn]; cases s <;> rcases hn with rfl | rfl | rfl <;> norm_num [superGain]
  · simp only [domainWarp, scale_pos]
    rw [superSimplexWarp_eq hn]

theorem stretch2_orth : Stretch (matrices2 .orthogonalGradientMatrix) √2 := by rw [matrices2_spec]; exact stretch_turn2
theorem stretch3_orth : Stretch (matrices3 .orthogonalGradientMatrix) √6 := by rw [matrices3_spec]; exact stretch_turn3

theorem sqrt6_le : √(6 : ℝ) ≤ 2.4494897427832 := Real.sqrt_le_iff.mpr ⟨by norm_num, by norm_num⟩

/-- **C62**, DomainWarpSimplex: with axis scales up to `A` the position moves at most by `A` times the amplitude (up to two millionths of it): in 2D with both vectorization schemes, in 3D with the orthogonal
gradient matrix and in 4D with the gradient outer product. -/
theorem C62_simplex (ft : Feat) (so : I32) (axisScale : Nat → ℝ) (A : ℝ) (hA : 0 ≤ A) (ha : ∀ k, |axisScale k| ≤ A) (scale : ℝ) (amplitude : Src) (seed : I32) :
    (∀ s (x : Fin 2 → ℝ), Fits scale x → MovesAtMost (domainWarp (simplexWarp s ft so axisScale) so scale amplitude) seed x (1.000002 * A * |amplitude seed (List.ofFn x)|)) ∧
    (∀ x : Fin 3 → ℝ, Fits scale x →
      MovesAtMost (domainWarp (simplexWarp .orthogonalGradientMatrix ft so axisScale) so scale amplitude) seed x (1.000002 * A * |amplitude seed (List.ofFn x)|)) ∧
    (∀ x : Fin 4 → ℝ, Fits scale x →
      MovesAtMost (domainWarp (simplexWarp .gradientOuterProduct ft so axisScale) so scale amplitude) seed x (1.000002 * A * |amplitude seed (List.ofFn x)|)) := by
  refine ⟨fun s x hx => ?_, fun x hx => ?_, fun x hx => ?_⟩
  · refine moves_simplex (.inl rfl) s ft so axisScale A hA ha scale amplitude seed x ?_
    obtain ⟨rank, hs, e⟩ := simplexVec_corners (.inl rfl) ft s (seed + so + so) _ (safe_of_bound (.inl rfl) _ hx)
    have eo : ∀ v : Fin 2 → ℝ, orient (-1) s v = v := fun v => by simp [orient]
    rw [e, eo]
    cases s
    · have := nrm_corners_le (.inl rfl) (by positivity) stretch2_orth (seed + so + so) _ rank hs
      have h2 := Simplex.sqrt2_bounds.2
      simp only [simplexBell, if_true] at this
      simp only [simplexGain]
      have t : nrm (∑ k : Fin 3, vecContribution (matrices2 .orthogonalGradientMatrix) (seed + so + so) (simplexRadiusSq 2) (fun i => x i / scale) (corner (base fun i => x i / scale) rank k)) ≤ 1.41421356237309505 * 0.010080214784 :=
        this.trans (by linarith)
      exact (mul_le_mul_of_nonneg_left t (by norm_num)).trans (by norm_num)
    · have t := outer_sum_le isRoot2_symmetric (a := fun h => vec2 (Gradient.simplex2 (secondOf12 h))) (b := fun h => vec2 (Gradient.simplex2 (firstOf12 h))) (fun h => ⟨_, rfl⟩) (c := 2) (by norm_num) id
        (fun _ _ => rfl) (fun _ _ => rfl) (fun h => (nrm_simplex2 _).le) (seed + so + so) (1 / 2) (fun i => x i / scale) Finset.univ (fun k : Fin 3 => corner (base fun i => x i / scale) rank k)
        (corners_le_of isRoot2_symmetric outer_simplex2 _ rank hs)
      rw [show (1 / 2 : ℝ) = simplexRadiusSq 2 by simp [simplexRadiusSq]] at t
      simp only [simplexGain]
      refine (mul_le_mul_of_nonneg_left t (by norm_num)).trans ?_
      norm_num [outerSimplexPeak]
  · refine moves_simplex (.inr (.inl rfl)) _ ft so axisScale A hA ha scale amplitude seed x ?_
    obtain ⟨rank, hs, e⟩ := simplexVec_corners (.inr (.inl rfl)) ft .orthogonalGradientMatrix (seed + so + so) _ (safe_of_bound (.inr (.inl rfl)) _ hx)
    have eo : ∀ v : Fin 3 → ℝ, orient (-1) .orthogonalGradientMatrix v = v := fun v => by simp [orient]
    rw [e, eo]
    have := nrm_corners_le (.inr (.inl rfl)) (by positivity) stretch3_orth (seed + so + so) _ rank hs
    have h2 := sqrt6_le
    rw [show simplexBell 3 = 0.025074187987 by simp [simplexBell]] at this
    simp only [simplexGain]
    have t : nrm (∑ k : Fin 4, vecContribution (matrices3 .orthogonalGradientMatrix) (seed + so + so) (simplexRadiusSq 3) (fun i => x i / scale) (corner (base fun i => x i / scale) rank k)) ≤ 2.4494897427832 * 0.025074187987 :=
      this.trans (by linarith)
    exact (mul_le_mul_of_nonneg_left t (by norm_num)).trans (by norm_num)
  · refine moves_simplex (.inr (.inr rfl)) _ ft so axisScale A hA ha scale amplitude seed x ?_
    obtain ⟨rank, hs, e⟩ := simplexVec_corners (.inr (.inr rfl)) ft .gradientOuterProduct (seed + so + so) _ (safe_of_bound (.inr (.inr rfl)) _ hx)
    have eo : ∀ v : Fin 4 → ℝ, orient (-1) .gradientOuterProduct v = v := fun v => by simp [orient]
    rw [e, eo]
    have t := outer_sum_le isRoot4_symmetric (a := fun h => WarpGrad.vec4 (Gradient.simplex4 (secondOf20 h))) (b := fun h => WarpGrad.vec4 (Gradient.simplex4 (firstOf20 h))) (fun h => isRoot4 _) (c := √2) (by positivity) id
      (fun _ _ => rfl) (fun _ _ => rfl) (fun h => (nrm_simplex4 _).le) (seed + so + so) (3 / 5) (fun i => x i / scale) Finset.univ (fun k : Fin 5 => corner (base fun i => x i / scale) rank k)
      (corners_le_of isRoot4_symmetric outer_simplex4 _ rank hs)
    rw [show (3 / 5 : ℝ) = simplexRadiusSq 4 by simp [simplexRadiusSq]] at t
    have h2 := Simplex.sqrt2_bounds.2
    have t' := t.trans (mul_le_mul_of_nonneg_right h2 (by norm_num [outerSimplexPeak]))
    simp only [simplexGain]
    refine (mul_le_mul_of_nonneg_left t' (by norm_num)).trans ?_
    norm_num [outerSimplexPeak]

/-- **C62**, DomainWarpSuperSimplex: with axis scales up to `A` the position moves at most by `A` times the amplitude (up to two millionths of it) in 2D with both schemes and in 3D with the gradient outer
product; in 3D with the orthogonal gradient matrix at most by half of that. -/
theorem C62_super (ft : Feat) (so : I32) (axisScale : Nat → ℝ) (A : ℝ) (hA : 0 ≤ A) (ha : ∀ k, |axisScale k| ≤ A) (scale : ℝ) (amplitude : Src) (seed : I32) :
    (∀ s (x : Fin 2 → ℝ), Fits scale x → MovesAtMost (domainWarp (superSimplexWarp s ft axisScale) so scale amplitude) seed x (1.000002 * A * |amplitude seed (List.ofFn x)|)) ∧
    (∀ x : Fin 3 → ℝ, Fits scale x →
      MovesAtMost (domainWarp (superSimplexWarp .gradientOuterProduct ft axisScale) so scale amplitude) seed x (1.000002 * A * |amplitude seed (List.ofFn x)|)) ∧
    (∀ x : Fin 3 → ℝ, Fits scale x →
      MovesAtMost (domainWarp (superSimplexWarp .orthogonalGradientMatrix ft axisScale) so scale amplitude) seed x (0.500003 * A * |amplitude seed (List.ofFn x)|)) := by
  have r2 : superRadiusSq 2 = 2 / 3 := by simp [superRadiusSq]
  have r3 : superRadiusSq 3 = 3 / 4 := by simp [superRadiusSq]
  refine ⟨fun s x hx => ?_, fun x hx => ?_, fun x hx => ?_⟩
  · refine moves_super (.inl rfl) s ft so axisScale A hA ha scale amplitude seed x ?_
    have eo : ∀ v : Fin 2 → ℝ, orient (-2 / 3) s v = v := fun v => by simp [orient]
    rw [superVec2 ft s _ _ (safe_of_bound (.inl rfl) _ hx), eo, ← r2, gridVector_near]
    cases s
    · have := nrm_points_le (.inl rfl) (by positivity) stretch2_orth (seed + so) (fun i => x i / scale) (nearPoints fun i => x i / scale)
      have h2 := Simplex.sqrt2_bounds.2
      simp only [superBell, if_true] at this
      simp only [superGain]
      have t := this.trans (mul_le_mul_of_nonneg_right h2 (by norm_num))
      exact (mul_le_mul_of_nonneg_left t (by norm_num)).trans (by norm_num)
    · have t := outer_sum_le isRoot2_symmetric (a := fun h => vec2 (Gradient.simplex2 (secondOf12 h))) (b := fun h => vec2 (Gradient.simplex2 (firstOf12 h))) (fun h => ⟨_, rfl⟩) (c := 2) (by norm_num) id
        (fun _ _ => rfl) (fun _ _ => rfl) (fun h => (nrm_simplex2 _).le) (seed + so) (2 / 3) (fun i => x i / scale) (nearPoints fun i => x i / scale) id
        (points_le_of isRoot2_symmetric (by norm_num) outer_super2 _ _)
      rw [← r2] at t
      simp only [superGain]
      refine (mul_le_mul_of_nonneg_left t (by norm_num)).trans ?_
      norm_num [outerSuperPeak]
  · refine moves_super (.inr (.inl rfl)) _ ft so axisScale A hA ha scale amplitude seed x ?_
    rw [superVec3 ft _ _ _ (safe_of_bound (.inr (.inl rfl)) _ hx), orient_mirror, ← r3, gridVector_near]
    have t := outer_sum_le isGrad_symmetric (a := fun h => WarpGrad.vec3 (edges3 (secondOf12 h))) (b := fun h => WarpGrad.vec3 (edges3 (firstOf12 h))) (fun h => isGrad_edges3 _) (c := √2) (by positivity) id
      (fun _ _ => rfl) (fun _ _ => rfl) (fun h => (nrm_edges3 _).le) (seed + so) (superRadiusSq 3) (fun i => x i / scale) (nearPoints fun i => x i / scale) id
      (points_le (.inr (.inl rfl)) _ _)
    have h2 := Simplex.sqrt2_bounds.2
    have t' := t.trans (mul_le_mul_of_nonneg_right h2 (by norm_num [superMax, superPeak]))
    have e : ∀ w : Fin 3 → ℝ, nrm (fun k => backMirror .gradientOuterProduct w k / 16) = 1 / 16 * nrm w := fun w => by
      rw [← nrm_mirror w, show (fun k => backMirror .gradientOuterProduct w k / 16) = (1 / 16 : ℝ) • mirror w by funext k; simp [backMirror]; ring, nrm_smul, abs_of_pos (by norm_num)]
    rw [e]
    simp only [superGain, id_eq] at t' ⊢
    refine (mul_le_mul_of_nonneg_left (mul_le_mul_of_nonneg_left t' (by norm_num)) (by norm_num)).trans ?_
    norm_num [superMax, superPeak]
  · refine moves_super (.inr (.inl rfl)) _ ft so axisScale A hA ha scale amplitude seed x ?_
    rw [superVec3 ft _ _ _ (safe_of_bound (.inr (.inl rfl)) _ hx), orient_mirror, ← r3, gridVector_near]
    have t := nrm_points_le (.inr (.inl rfl)) (by positivity) stretch3_orth (seed + so) (fun i => x i / scale) (nearPoints fun i => x i / scale)
    rw [show superBell 3 = 0.086776325965 by simp [superBell]] at t
    have t' := t.trans (mul_le_mul_of_nonneg_right sqrt6_le (by norm_num))
    have e : ∀ w : Fin 3 → ℝ, nrm (fun k => backMirror .orthogonalGradientMatrix w k / 16) = 1 / 16 * nrm w := fun w => by
      rw [show (fun k => backMirror .orthogonalGradientMatrix w k / 16) = (1 / 16 : ℝ) • w by funext k; simp [backMirror]; ring, nrm_smul, abs_of_pos (by norm_num)]
    rw [e]
    simp only [superGain]
    refine (mul_le_mul_of_nonneg_left (mul_le_mul_of_nonneg_left t' (by norm_num)) (by norm_num)).trans ?_
    norm_num

/-- **C62**, DomainWarpSimplex in 3D with the gradient outer product, partial: at most 1.7321 times the amplitude.  Missing: the position may move further than the amplitude, because the step that should mirror the
vector back is no reflection (`C45_not_a_reflection`) and lengthens vectors: `C62_simplex3_exceeds`. -/
theorem C62_simplex3_outer_partial (ft : Feat) (so : I32) (axisScale : Nat → ℝ) (A : ℝ) (hA : 0 ≤ A) (ha : ∀ k, |axisScale k| ≤ A) (scale : ℝ) (amplitude : Src) (seed : I32)
    (x : Fin 3 → ℝ) (hx : Fits scale x) :
    MovesAtMost (domainWarp (simplexWarp .gradientOuterProduct ft so axisScale) so scale amplitude) seed x (1.7321 * A * |amplitude seed (List.ofFn x)|) := by
  refine moves_simplex (.inr (.inl rfl)) _ ft so axisScale A hA ha scale amplitude seed x ?_
  obtain ⟨rank, hs, e⟩ := simplexVec_corners (.inr (.inl rfl)) ft .gradientOuterProduct (seed + so + so) _ (safe_of_bound (.inr (.inl rfl)) _ hx)
  rw [e]
  have t := outer_sum_le isGrad_symmetric (a := fun h => WarpGrad.vec3 (edges3 (secondOf12 h))) (b := fun h => WarpGrad.vec3 (edges3 (firstOf12 h))) (fun h => isGrad_edges3 _) (c := √6) (by positivity)
    (orient (-1) .gradientOuterProduct)
    (fun s w => by
      funext k
      simp only [orient, true_and, if_true, Finset.sum_apply, Finset.sum_add_distrib, Finset.mul_sum]
      rw [Finset.sum_comm])
    (fun t w => by funext k; simp only [orient, true_and, if_true, Pi.smul_apply, smul_eq_mul, ← Finset.mul_sum]; ring)
    (fun h => orient_edges3 _) (seed + so + so) (simplexRadiusSq 3) (fun i => x i / scale) Finset.univ (fun k : Fin 4 => corner (base fun i => x i / scale) rank k)
    (corners_le (.inr (.inl rfl)) _ rank hs)
  have t' := t.trans (mul_le_mul_of_nonneg_right sqrt6_le (by norm_num [simplexPeak]))
  simp only [simplexGain]
  refine (mul_le_mul_of_nonneg_left t' (by norm_num)).trans ?_
  norm_num [simplexPeak]

/-- **C62**, DomainWarpSuperSimplex in 4D with the gradient outer product, partial: at most 1.01 times the amplitude.  Missing: one percent. -/
theorem C62_super4_outer_partial (ft : Feat) (so : I32) (axisScale : Nat → ℝ) (A : ℝ) (hA : 0 ≤ A) (ha : ∀ k, |axisScale k| ≤ A) (scale : ℝ) (amplitude : Src) (seed : I32)
    (x : Fin 4 → ℝ) (hx : Fits scale x) :
    MovesAtMost (domainWarp (superSimplexWarp .gradientOuterProduct ft axisScale) so scale amplitude) seed x (1.010001 * A * |amplitude seed (List.ofFn x)|) := by
  refine moves_super (.inr (.inr rfl)) _ ft so axisScale A hA ha scale amplitude seed x ?_
  have eo : ∀ v : Fin 4 → ℝ, orient (-2 / 3) .gradientOuterProduct v = v := fun v => by simp [orient]
  obtain ⟨s, -, h2⟩ := superVec4_sum ft .gradientOuterProduct (seed + so) (fun i => x i / scale) (safe_of_bound (.inr (.inr rfl)) _ hx)
  rw [h2, eo]
  have t := outer_sum_le isRoot4_symmetric (a := fun h => WarpGrad.vec4 (Gradient.simplex4 (secondOf20 h))) (b := fun h => WarpGrad.vec4 (Gradient.simplex4 (firstOf20 h))) (fun h => isRoot4 _) (c := √2) (by positivity) id
    (fun _ _ => rfl) (fun _ _ => rfl) (fun h => (nrm_simplex4 _).le) (seed + so) (4 / 5) (fun i => x i / scale) s id
    (points_le_of isRoot4_symmetric (by norm_num) outer_super4 _ _)
  have h2 := Simplex.sqrt2_bounds.2
  have t' := t.trans (mul_le_mul_of_nonneg_right h2 (by norm_num [outerSuperPeak]))
  have e : ∀ w : Fin 4 → ℝ, nrm (fun k => w k / 16) = 1 / 16 * nrm w := fun w => by
    rw [show (fun k => w k / 16) = (1 / 16 : ℝ) • w by funext k; simp; ring, nrm_smul, abs_of_pos (by norm_num)]
  simp only [← Finset.sum_apply]
  rw [e]
  simp only [superGain, id_eq] at t' ⊢
  refine (mul_le_mul_of_nonneg_left (mul_le_mul_of_nonneg_left t' (by norm_num)) (by norm_num)).trans ?_
  norm_num [outerSuperPeak]

theorem stretch4_orth (ft : Feat) : Stretch (matrices ft .orthogonalGradientMatrix 4) 3.54 := by
  intro h hm w
  have : matrices ft .orthogonalGradientMatrix 4 h = gridMatrix4 (basisOf ft) h := matrices4_eq ft .orthogonalGradientMatrix h hm
  rw [this]
  exact stretch_rows (row_grid ft h) w

/-- **C62**, 4D with the orthogonal gradient matrix, partial: at most 2.53 times the amplitude (DomainWarpSimplex) and 1.35 times (DomainWarpSuperSimplex), on every feature level.  Missing: the amplitude
itself; DomainWarpSimplex does move positions further (`C62_simplex4_exceeds`), because its matrices are not orthogonal (`C45_axes_repeat`). -/
theorem C62_orthogonal4_partial (ft : Feat) (so : I32) (axisScale : Nat → ℝ) (A : ℝ) (hA : 0 ≤ A) (ha : ∀ k, |axisScale k| ≤ A) (scale : ℝ) (amplitude : Src) (seed : I32)
    (x : Fin 4 → ℝ) (hx : Fits scale x) :
    MovesAtMost (domainWarp (simplexWarp .orthogonalGradientMatrix ft so axisScale) so scale amplitude) seed x (2.53 * A * |amplitude seed (List.ofFn x)|) ∧
    MovesAtMost (domainWarp (superSimplexWarp .orthogonalGradientMatrix ft axisScale) so scale amplitude) seed x (1.35 * A * |amplitude seed (List.ofFn x)|) := by
  constructor
  · refine moves_simplex (.inr (.inr rfl)) _ ft so axisScale A hA ha scale amplitude seed x ?_
    obtain ⟨rank, hs, e⟩ := simplexVec_corners (.inr (.inr rfl)) ft .orthogonalGradientMatrix (seed + so + so) _ (safe_of_bound (.inr (.inr rfl)) _ hx)
    have eo : ∀ v : Fin 4 → ℝ, orient (-1) .orthogonalGradientMatrix v = v := fun v => by simp [orient]
    rw [e, eo]
    have := nrm_corners_le (.inr (.inr rfl)) (by norm_num) (stretch4_orth ft) (seed + so + so) _ rank hs
    rw [show simplexBell 4 = 0.02312631 by simp [simplexBell]] at this
    simp only [simplexGain]
    exact (mul_le_mul_of_nonneg_left this (by norm_num)).trans (by norm_num)
  · refine moves_super (.inr (.inr rfl)) _ ft so axisScale A hA ha scale amplitude seed x ?_
    have eo : ∀ v : Fin 4 → ℝ, orient (-2 / 3) .orthogonalGradientMatrix v = v := fun v => by simp [orient]
    obtain ⟨s, -, h2⟩ := superVec4_sum ft .orthogonalGradientMatrix (seed + so) (fun i => x i / scale) (safe_of_bound (.inr (.inr rfl)) _ hx)
    rw [h2, eo]
    have t := nrm_points_le (.inr (.inr rfl)) (by norm_num) (stretch4_orth ft) (seed + so) (fun i => x i / scale) s
    rw [show superBell 4 = 0.12500001 by simp [superBell], show superRadiusSq 4 = 4 / 5 by simp [superRadiusSq]] at t
    have e : ∀ w : Fin 4 → ℝ, nrm (fun k => w k / 16) = 1 / 16 * nrm w := fun w => by
      rw [show (fun k => w k / 16) = (1 / 16 : ℝ) • w by funext k; simp; ring, nrm_smul, abs_of_pos (by norm_num)]
    simp only [← Finset.sum_apply]
    rw [e]
    simp only [superGain]
    refine (mul_le_mul_of_nonneg_left (mul_le_mul_of_nonneg_left t (by norm_num)) (by norm_num)).trans ?_
    norm_num

theorem nrm_sub_le (a b : Fin n → ℝ) : nrm a ≤ nrm b + nrm (a - b) := by
  have := nrm_sum_le Finset.univ ![b, a - b]
  simpa [Fin.sum_univ_two] using this

/-- Where C62 fails: a new 3D DomainWarpSimplex node (amplitude 1, scale 1, axis scales 1) with the gradient outer product scheme moves this position by more than 1.35, with seed 0. -/
theorem C62_simplex3_exceeds (ft : Feat) :
    ¬ MovesAtMost (domainWarp (simplexWarp .gradientOuterProduct ft 0 fun _ => 1) 0 1 fun _ _ => 1) 0 (![-1 / 24, -1 / 24, -1 / 6] : Fin 3 → ℝ) 1.35 := by
  set x : Fin 3 → ℝ := ![-1 / 24, -1 / 24, -1 / 6] with hx
  have hz : ∀ source : Src, domainWarp (simplexWarp .gradientOuterProduct ft 0 fun _ => 1) 0 1 (fun _ _ => 1) source 0 (List.ofFn x) =
      source 0 (List.ofFn fun k => x k + 1 * (simplexBounding .gradientOuterProduct 3 * 1 * orient (-1) .gradientOuterProduct (simplexVec ft .gradientOuterProduct (0 + 0 + 0) fun i => x i / 1) k)) := fun source => by
    simp only [domainWarp, scale_pos]
    rw [simplexWarp_eq (.inr (.inl rfl))]
  rw [moves_exact hz, not_le]
  have hx1 : (fun i => x i / 1) = x := by funext i; simp
  have hs : (0 + 0 + 0 : I32) = 0 := rfl
  rw [hx1, hs]
  have hsum : ∑ i, x i ^ 2 = 1 / 32 := by rw [hx]; simp [Fin.sum_univ_three]; norm_num
  have hsafe : Safe x := safe_of_bound (.inr (.inl rfl)) _ fun i => by fin_cases i <;> simp [hx, abs_of_neg] <;> norm_num
  have hM : Stretch (matrices ft .gradientOuterProduct 3) 2 := by
    have := stretch_of_outer (a := fun h => WarpGrad.vec3 (edges3 (secondOf12 h))) (b := fun h => WarpGrad.vec3 (edges3 (firstOf12 h))) (fun h => (nrm_edges3 _).le) fun h => (nrm_edges3 _).le
    rw [Real.mul_self_sqrt (by norm_num)] at this
    exact this
  have hf := near_others (.inl rfl) (q0 := 19 / 40) ft .gradientOuterProduct hM (by norm_num) 0 x hsafe (by rw [hsum]; norm_num) (by norm_num) fun v hv => by
    have h1 := dist_ge (a := 1 / 5) (by norm_num) x (gridPoint v)
    have h2 := grid_far3 v hv
    rw [hsum] at h1
    norm_num at h1 h2 ⊢
    linarith
  obtain ⟨w, hw⟩ : ∃ w, w = simplexVec ft .gradientOuterProduct 0 x := ⟨_, rfl⟩
  have hown : vecContribution (matrices ft .gradientOuterProduct 3) 0 (3 / 5) x 0 = ![(91 / 160) ^ 4 / 4, (91 / 160) ^ 4 / 4, 0] := by
    have hh : gridHash (0 : I32) (0 : Fin 3 → ℤ) = 0 := by decide
    have hm : matrices ft .gradientOuterProduct 3 0 = outerMatrix3 0 := rfl
    have h1 : firstOf12 0 = 0 := by decide
    have h2 : secondOf12 0 = 0 := by decide
    rw [vecContribution, hh, gridPoint_zero, hm, outerMatrix3, h1, h2, vecMulVec_mulVec]
    funext k
    fin_cases k <;> simp [distSq, hsum, rampArg, mirror, Fin.sum_univ_three, dotProduct, WarpGrad.vec3, edges3, common3, hx] <;> norm_num
  rw [hown, ← hw] at hf
  rw [← hw]
  have hk : ∀ k, |w k - (![(91 / 160) ^ 4 / 4, (91 / 160) ^ 4 / 4, 0] : Fin 3 → ℝ) k| ≤ 0.0012 := fun k => by
    exact (abs_le_nrm (w - ![(91 / 160) ^ 4 / 4, (91 / 160) ^ 4 / 4, 0]) k).trans (hf.trans (by norm_num))
  have h0 := abs_le.mp (hk 0); have h1 := abs_le.mp (hk 1); have h2 := abs_le.mp (hk 2)
  simp only [cons_val] at h0 h1 h2
  refine Real.lt_sqrt_of_sq_lt ?_
  simp only [orient, true_and, if_true, Fin.sum_univ_three, simplexBounding]
  norm_num at h0 h1 h2 ⊢
  have a0 : (0.0237 : ℝ) ≤ w 1 + w 2 := by linarith [h1.1, h2.1]
  have a1 : (0.0237 : ℝ) ≤ w 0 + w 2 := by linarith [h0.1, h2.1]
  have a2 : (0.0498 : ℝ) ≤ w 0 + w 1 := by linarith [h0.1, h1.1]
  have sq : ∀ {u r : ℝ}, 0 ≤ r → r ≤ u → r ^ 2 ≤ u ^ 2 := fun h0 h => pow_le_pow_left₀ h0 h 2
  have b0 := sq (by norm_num) a0
  have b1 := sq (by norm_num) a1
  have b2 := sq (by norm_num) a2
  nlinarith

/-- Where C62 fails: a new 4D DomainWarpSimplex node (amplitude 1, scale 1, axis scales 1) with the default scheme moves this position by more than 1.3, with seed 15, on every feature level. -/
theorem C62_simplex4_exceeds (ft : Feat) :
    ¬ MovesAtMost (domainWarp (simplexWarp .orthogonalGradientMatrix ft 0 fun _ => 1) 0 1 fun _ _ => 1) 15 (![1 / 10, 3 / 20, 1 / 10, 0] : Fin 4 → ℝ) 1.3 := by
  set x : Fin 4 → ℝ := ![1 / 10, 3 / 20, 1 / 10, 0] with hx
  have hz : ∀ source : Src, domainWarp (simplexWarp .orthogonalGradientMatrix ft 0 fun _ => 1) 0 1 (fun _ _ => 1) source 15 (List.ofFn x) =
      source 15 (List.ofFn fun k => x k + 1 * (simplexBounding .orthogonalGradientMatrix 4 * 1 * orient (-1) .orthogonalGradientMatrix (simplexVec ft .orthogonalGradientMatrix (15 + 0 + 0) fun i => x i / 1) k)) := fun source => by
    simp only [domainWarp, scale_pos]
    rw [simplexWarp_eq (.inr (.inr rfl))]
  rw [moves_exact hz, not_le]
  have hx1 : (fun i => x i / 1) = x := by funext i; simp
  have hs : (15 + 0 + 0 : I32) = 15 := rfl
  rw [hx1, hs]
  have hsum : ∑ i, x i ^ 2 = 17 / 400 := by rw [hx]; simp [Fin.sum_univ_four]; norm_num
  have hsafe : Safe x := safe_of_bound (.inr (.inr rfl)) _ fun i => by fin_cases i <;> simp [hx] <;> norm_num
  have hf := near_others (.inr rfl) (q0 := 47 / 100) ft .orthogonalGradientMatrix (stretch4_orth ft) (by norm_num) 15 x hsafe (by rw [hsum]; norm_num) (by norm_num) fun v hv => by
    have h1 := dist_ge (a := 23 / 100) (by norm_num) x (gridPoint v)
    have h2 := grid_far4 v hv
    rw [hsum] at h1
    norm_num at h1 h2 ⊢
    linarith
  obtain ⟨w, hw⟩ : ∃ w, w = simplexVec ft .orthogonalGradientMatrix 15 x := ⟨_, rfl⟩
  obtain ⟨o, ho⟩ : ∃ o, o = vecContribution (matrices ft .orthogonalGradientMatrix 4) 15 (3 / 5) x 0 := ⟨_, rfl⟩
  have hown : ∀ k, k ≠ 0 → 0.0281 ≤ o k := by
    intro k hk2
    obtain ⟨h, hh⟩ : ∃ h, h = gridHash (15 : I32) (0 : Fin 4 → ℤ) := ⟨_, rfl⟩
    have hm : matrices ft .orthogonalGradientMatrix 4 h = gridMatrix4 (basisOf ft) h := matrices4_eq ft .orthogonalGradientMatrix h (by rw [hh]; decide)
    have h1 : firstOf20 h = 9 := by rw [hh]; decide
    have h2 : axisRow h = ![0, 2, 2, 2] := by rw [hh]; decide
    have h3 : ¬ h.toNat % 2 = 1 := by rw [hh]; decide
    have hrow : ∀ b, pairBasis 1 3 b 2 = ![0.222726847849776 + 0.437016024448821, -0.375999676691291 + 0.437016024448821 + 1, 0.222726847849776 + 0.437016024448821, -0.375999676691291 + 0.437016024448821 + b] := by
      intro b; funext c; fin_cases c <;> simp [pairBasis]
    have hb : ∃ b, basisOf ft 9 = pairBasis 1 3 b := by
      have hc : pairCols 9 = (1, 3) := by decide
      unfold basisOf
      split_ifs
      · exact ⟨0, by rw [basis512, if_neg (by decide), if_pos (by decide), hc]⟩
      · exact ⟨1, by rw [basis256, if_pos (by decide), hc]⟩
      · exact ⟨0, by rw [basisGeneric, if_pos (by decide), hc]⟩
    obtain ⟨b, hb⟩ := hb
    have hr : (gridMatrix4 (basisOf ft) h) k = pairBasis 1 3 b 2 := by
      show (if h.toNat % 2 = 1 then -1 else 1 : ℝ) • basisOf ft (firstOf20 h) (axisRow h k) = _
      rw [if_neg h3, one_smul, h1, hb, h2]
      fin_cases k <;> first | rfl | exact absurd rfl hk2
    rw [ho, vecContribution, ← hh, gridPoint_zero, hm]
    simp only [Pi.smul_apply, mulVec, hr, hrow]
    simp [distSq, hsum, rampArg, dotProduct, Fin.sum_univ_four, hx]
    norm_num
  rw [← ho, ← hw] at hf
  rw [← hw]
  have hk : ∀ k, k ≠ 0 → 0.0248 ≤ w k := fun k hk2 => by
    have h1 := (abs_le_nrm (w - o) k).trans (hf.trans (b := _) (c := 0.0033) (by norm_num))
    have h2 := hown k hk2
    have := (abs_le.mp h1).1
    simp only [Pi.sub_apply] at this
    linarith
  have h2 := hk 2 (by decide); have h1 := hk 1 (by decide); have h3 := hk 3 (by decide)
  refine Real.lt_sqrt_of_sq_lt ?_
  simp only [orient, reduceCtorEq, false_and, if_false, Fin.sum_univ_four, simplexBounding]
  norm_num at h1 h2 h3 ⊢
  nlinarith [sq_nonneg (w 0)]

/-- The hypotheses of the theorems above are met with the axis scales of a new node. -/
example : (∀ k : Nat, |(fun _ => 1 : Nat → ℝ) k| ≤ 1) ∧ Fits 100 (![12, -155, 678.5] : Fin 3 → ℝ) := ⟨fun _ => by simp, by intro i; fin_cases i <;> norm_num [abs_of_pos, abs_of_neg]⟩

end
end FastNoise.WarpRange
