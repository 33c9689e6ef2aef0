import Verif.WarpRangeLemmas
import Verif.WarpBasisNear
/-! # Lemmas: positions near a grid point, and the lengths of the rows of the 4D matrices -/
namespace FastNoise.WarpRange
open FastNoise.Hash FastNoise.Num FastNoise.Basic FastNoise.Gradient FastNoise.Simplex FastNoise.WarpGrad FastNoise.WarpSimplex FastNoise.Fractal Matrix

noncomputable section

variable {n : Nat}

/-- Where the position goes, if it is known. -/
theorem moves_exact {node : Src → Src} {seed : I32} {x z : Fin n → ℝ} {r : ℝ} (hz : ∀ source : Src, node source seed (List.ofFn x) = source seed (List.ofFn z)) :
    MovesAtMost node seed x r ↔ distance x z ≤ r := by
  constructor
  · rintro ⟨y, hy, h⟩
    have : y = z := by
      funext k
      have := (hz fun _ q => q.getD k 0).symm.trans (h fun _ q => q.getD k 0)
      simpa using this.symm
    rwa [← this]
  · exact fun h => ⟨z, h, hz⟩

theorem abs_le_nrm (w : Fin n → ℝ) (k : Fin n) : |w k| ≤ nrm w := by
  rw [← Real.sqrt_sq_eq_abs]
  exact Real.sqrt_le_sqrt (Finset.single_le_sum (f := fun k => w k ^ 2) (fun _ _ => sq_nonneg _) (Finset.mem_univ k))

theorem gridPoint_zero : gridPoint (0 : Fin n → ℤ) = 0 := by funext i; simp [gridPoint]

/-- Near the origin, grid points other than the origin contribute little. -/
theorem near_others (hn : n = 3 ∨ n = 4) {c q0 : ℝ} (ft : Feat) (s : Scheme) (hM : Stretch (matrices ft s n) c) (hc : 0 ≤ c) (seed : I32) (p : Fin n → ℝ) (hb : Safe p)
    (h0 : ∑ i, p i ^ 2 < 1 / 2) (hq : q0 ≤ 3 / 5) (hfar : ∀ v : Fin n → ℤ, v ≠ 0 → q0 ≤ distSq p (gridPoint v)) :
    nrm (simplexVec ft s seed p - vecContribution (matrices ft s n) seed (3 / 5) p 0) ≤ n * (c * ((3 / 5 - q0) ^ 4 * (4 / 5))) := by
  have hr : simplexRadiusSq n = 3 / 5 := by rcases hn with rfl | rfl <;> simp [simplexRadiusSq]
  obtain ⟨rank, hs, e⟩ := simplexVec_corners (by omega) ft s seed p hb
  have hmem : (0 : Fin n → ℤ) ∈ Finset.univ.image fun k : Fin (n + 1) => corner (base p) rank k := by
    by_contra h
    have := far_corner p rank hs 0 h
    rw [← distSq_gridPoint, gridPoint_zero] at this
    simp only [distSq, Pi.zero_apply, sub_zero] at this
    linarith
  obtain ⟨k0, -, hk0⟩ := Finset.mem_image.mp hmem
  rw [e, hr, ← Finset.add_sum_erase Finset.univ _ (Finset.mem_univ k0), hk0, add_sub_cancel_left]
  refine (nrm_sum_le _ _).trans ?_
  have hcard : (Finset.univ.erase k0 : Finset (Fin (n + 1))).card = n := by simp
  calc _ ≤ ∑ k ∈ Finset.univ.erase k0, c * ((3 / 5 - q0) ^ 4 * (4 / 5)) := Finset.sum_le_sum fun k hk => ?_
    _ = _ := by rw [Finset.sum_const, hcard, nsmul_eq_mul]
  have hne : corner (base p) rank k ≠ 0 := fun h => Finset.ne_of_mem_erase hk (corner_injective _ rank (h.trans hk0.symm))
  have hv := hfar _ hne
  refine (nrm_vecContribution hM seed _ p _).trans (mul_le_mul_of_nonneg_left ?_ hc)
  rw [distSq_gridPoint] at hv
  unfold bell
  rcases le_total (3 / 5) (Q fun i => skewed p i - corner (base p) rank k i) with h | h
  · rw [max_eq_right (by linarith)]; simp; positivity
  · rw [max_eq_left (by linarith)]
    have hq0 : 0 ≤ 3 / 5 - Q fun i => skewed p i - corner (base p) rank k i := by linarith
    refine mul_le_mul (pow_le_pow_left₀ hq0 (by linarith) 4) ?_ (Real.sqrt_nonneg _) (by positivity)
    exact Real.sqrt_le_iff.mpr ⟨by norm_num, by linarith⟩

/-- Distances to grid points from a position near the origin, with a free parameter. -/
theorem dist_ge {a : ℝ} (ha : 0 < a) (p g : Fin n → ℝ) : (1 - a) * ∑ i, g i ^ 2 - (1 / a - 1) * ∑ i, p i ^ 2 ≤ distSq p g := by
  rw [distSq, Finset.mul_sum, Finset.mul_sum, ← Finset.sum_sub_distrib]
  refine Finset.sum_le_sum fun i _ => ?_
  have : 0 ≤ (p i - a * g i) ^ 2 / a := by positivity
  have e : (p i - g i) ^ 2 - ((1 - a) * g i ^ 2 - (1 / a - 1) * p i ^ 2) = (p i - a * g i) ^ 2 / a := by field_simp; ring
  linarith

theorem grid_far3 (v : Fin 3 → ℤ) (hv : v ≠ 0) : 3 / 4 ≤ ∑ i, gridPoint v i ^ 2 := by
  have e : ∑ i, gridPoint v i ^ 2 = distSq 0 (gridPoint v) := by simp [distSq]
  rw [e, distSq_gridPoint, Q]
  have h : 3 ≤ 4 * (v 0 ^ 2 + v 1 ^ 2 + v 2 ^ 2) - (v 0 + v 1 + v 2) ^ 2 := by
    have h := int_quad (a := v 0) (b := v 1) (c := v 2) (d := 0) fun h => hv (by funext i; fin_cases i <;> simp [h])
    by_contra hlt
    push Not at hlt
    have e : 4 * (v 0 ^ 2 + v 1 ^ 2 + v 2 ^ 2) - (v 0 + v 1 + v 2) ^ 2 = v 0 ^ 2 + v 1 ^ 2 + v 2 ^ 2 + (v 0 - v 1) ^ 2 + (v 0 - v 2) ^ 2 + (v 1 - v 2) ^ 2 := by ring
    have a0 : ∀ z : ℤ, z ^ 2 ≤ 2 → -1 ≤ z ∧ z ≤ 1 := fun z hz => ⟨by nlinarith, by nlinarith⟩
    have s0 := sq_nonneg (v 0); have s1 := sq_nonneg (v 1); have s2 := sq_nonneg (v 2)
    have s3 := sq_nonneg (v 0 - v 1); have s4 := sq_nonneg (v 0 - v 2); have s5 := sq_nonneg (v 1 - v 2)
    obtain ⟨x1, x2⟩ := a0 (v 0) (by linarith)
    obtain ⟨y1, y2⟩ := a0 (v 1) (by linarith)
    obtain ⟨z1, z2⟩ := a0 (v 2) (by linarith)
    generalize v 0 = a at *
    generalize v 1 = b at *
    generalize v 2 = c at *
    interval_cases a <;> interval_cases b <;> interval_cases c <;> omega
  have h' : (3 : ℝ) ≤ 4 * ((v 0 : ℝ) ^ 2 + (v 1 : ℝ) ^ 2 + (v 2 : ℝ) ^ 2) - ((v 0 : ℝ) + v 1 + v 2) ^ 2 := by exact_mod_cast h
  simp only [Fin.sum_univ_three, skewed, Pi.zero_apply]
  norm_num
  nlinarith

theorem grid_far4 (v : Fin 4 → ℤ) (hv : v ≠ 0) : 4 / 5 ≤ ∑ i, gridPoint v i ^ 2 := by
  have e : ∑ i, gridPoint v i ^ 2 = distSq 0 (gridPoint v) := by simp [distSq]
  rw [e, distSq_gridPoint, Q]
  have h := int_quad (a := v 0) (b := v 1) (c := v 2) (d := v 3) fun h => hv (by funext i; fin_cases i <;> simp [h])
  have h' : (4 : ℝ) ≤ 5 * ((v 0 : ℝ) ^ 2 + (v 1 : ℝ) ^ 2 + (v 2 : ℝ) ^ 2 + (v 3 : ℝ) ^ 2) - ((v 0 : ℝ) + v 1 + v 2 + v 3) ^ 2 := by exact_mod_cast h
  simp only [Fin.sum_univ_four, skewed, Pi.zero_apply]
  norm_num
  nlinarith

/-! ## Rows of the 4D matrices -/

theorem row_pair (p n : Fin 4) (h : p ≠ n) (i : Fin 4) : pairBasis p n 1 i ⬝ᵥ pairBasis p n 1 i ≤ 3.125 := by
  have s2 : √2 * √2 = (2 : ℝ) := Real.mul_self_sqrt (by norm_num)
  have t2 := gold_sq
  have hs := WarpGrad.sqrt2_bounds
  have ht := gold_bounds
  have hst := sqrt2_gold_bounds
  rw [dot_perm _ (pairPerm_inj p n h) (pairBasis_perm p n 1 h), pairRows, WarpGrad.dot4]
  generalize √2 = s at *
  generalize goldSkew = t at *
  fin_cases i <;> simp only [of_apply, cons_val, Fin.zero_eta, Fin.mk_one, Fin.reduceFinMk] <;> linarith

theorem row_single (j : Fin 4) (i : Fin 4) : singleBasis j 1 0 i ⬝ᵥ singleBasis j 1 0 i ≤ 3.125 := by
  have s2 : √2 * √2 = (2 : ℝ) := Real.mul_self_sqrt (by norm_num)
  have t2 := gold_sq
  have hs := WarpGrad.sqrt2_bounds
  have ht := gold_bounds
  have hst := sqrt2_gold_bounds
  rw [dot_perm _ (singlePerm_inj j) (singleBasis_perm j 1 0), singleRows, WarpGrad.dot4]
  generalize √2 = s at *
  generalize goldSkew = t at *
  fin_cases i <;> simp only [of_apply, cons_val, Fin.zero_eta, Fin.mk_one, Fin.reduceFinMk] <;> linarith

theorem row_near {M : Matrix (Fin 4) (Fin 4) ℝ} (h : NearlyOrthogonal M) (i : Fin 4) : M i ⬝ᵥ M i ≤ 3.125 := by
  have := (abs_le.mp (h i i)).2
  rw [if_pos rfl] at this
  linarith

/-- All rows of all bases, on all feature levels. -/
theorem row_basis (ft : Feat) (k : Fin 20) (i : Fin 4) : basisOf ft k i ⬝ᵥ basisOf ft k i ≤ 3.125 := by
  unfold basisOf
  split_ifs
  · exact row_near (near512 k) i
  · unfold basis256
    split_ifs with h
    · exact row_pair _ _ (pairCols_ne k h) i
    · exact row_near (near_singles _ 1 (.inr rfl)) i
  · unfold basisGeneric
    split_ifs with h
    · exact row_near (near_pairs k h) i
    · exact row_single _ i

theorem stretch_rows {M : Matrix (Fin 4) (Fin 4) ℝ} (h : ∀ i, M i ⬝ᵥ M i ≤ 3.125) (w : Fin 4 → ℝ) : nrm (M *ᵥ w) ≤ 3.54 * nrm w := by
  refine nrm_le_of_sq (by have := nrm_nonneg w; positivity) ?_
  have hk : ∀ k, (M *ᵥ w) k ^ 2 ≤ 3.125 * nrm w ^ 2 := by
    intro k
    have h1 := dot_le (M k) w
    have h2 : (M *ᵥ w) k ^ 2 ≤ (nrm (M k) * nrm w) ^ 2 := sq_le_sq' (by have := (abs_le.mp h1).1; simpa [mulVec] using this) (by have := (abs_le.mp h1).2; simpa [mulVec] using this)
    rw [mul_pow, nrm_sq (M k), ← dot_self] at h2
    exact h2.trans (mul_le_mul_of_nonneg_right (h k) (sq_nonneg _))
  have := nrm_nonneg w
  calc ∑ k, (M *ᵥ w) k ^ 2 ≤ ∑ _k : Fin 4, 3.125 * nrm w ^ 2 := Finset.sum_le_sum fun k _ => hk k
    _ = 12.5 * nrm w ^ 2 := by rw [Finset.sum_const]; simp; ring
    _ ≤ _ := by rw [mul_pow]; nlinarith [sq_nonneg (nrm w)]

/-- The rows of a matrix of the 4D orthogonal scheme; the hash has no sign bit. -/
theorem row_grid (ft : Feat) (h : I32) (i : Fin 4) : gridMatrix4 (basisOf ft) h i ⬝ᵥ gridMatrix4 (basisOf ft) h i ≤ 3.125 := by
  have := row_basis ft (firstOf20 h) (axisRow h i)
  rw [show gridMatrix4 (basisOf ft) h i = (if h.toNat % 2 = 1 then -1 else 1 : ℝ) • basisOf ft (firstOf20 h) (axisRow h i) from rfl]
  split_ifs <;> simpa using this

end
end FastNoise.WarpRange
