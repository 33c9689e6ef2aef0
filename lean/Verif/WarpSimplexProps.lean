import Verif.WarpSimplexLemmas
import Verif.WarpBasisNear
import Verif.SimplexMore
/-!
# C45: DomainWarpSimplex and DomainWarpSuperSimplex

The specification is in `Verif.WarpGradSpec` and `Verif.WarpBasisSpec` (the matrices) and `Verif.WarpSimplexSpec` (the warp vector).
-/
namespace FastNoise.WarpSimplex
open FastNoise.Hash FastNoise.Num FastNoise.Basic FastNoise.Gradient FastNoise.Simplex FastNoise.WarpGrad FastNoise.Fractal Matrix

noncomputable section

variable {n : Nat}

/-! ## One grid point -/

/-- **C45**, contribution of one grid point: in 2D and 3D, and in 4D with the outer product, the grid point adds (falloff) × (a matrix that depends on nothing but its hash) ×
(offset) to the warp vector, whatever the feature flags.  The matrices are those of the specification: in particular orthogonal up to a factor in 2D and 3D. -/
theorem C45_contribution :
    (∀ s ft (h : I32), h.msb = false → ∀ (f v : Fin 2 → ℝ) m, applyContribution s ft h (List.ofFn f) m (List.ofFn v) = List.ofFn fun k => v k + m * (matrix2 s h *ᵥ f) k) ∧
    (∀ s ft (h : I32), h.msb = false → ∀ (f v : Fin 3 → ℝ) m, applyContribution s ft h (List.ofFn f) m (List.ofFn v) = List.ofFn fun k => v k + m * (gridMatrix3 s h *ᵥ f) k) ∧
    (∀ ft (h : I32), h.msb = false → ∀ (f v : Fin 4 → ℝ) m,
      applyContribution .gradientOuterProduct ft h (List.ofFn f) m (List.ofFn v) = List.ofFn fun k => v k + m * (outerMatrix4 h *ᵥ f) k) := by
  refine ⟨fun s ft h hm f v m => ?_, fun s ft h hm f v m => ?_, fun ft h hm f v m => ?_⟩
  · rw [← matrices2_spec]; exact applyContribution_eq (.inl rfl) s ft h hm f v m
  · rw [← matrices3_spec]; exact applyContribution_eq (.inr (.inl rfl)) s ft h hm f v m
  · exact applyContribution_eq (.inr (.inr rfl)) .gradientOuterProduct ft h hm f v m

/-- The matrices of the 2D orthogonal scheme are √2 times orthogonal matrices, half of them preserve orientation. -/
theorem C45_turn2 (h : I32) : turnMatrix2 h * (turnMatrix2 h)ᵀ = (2 : ℝ) • 1 ∧ turnMatrix2 h 0 0 * turnMatrix2 h 1 1 - turnMatrix2 h 0 1 * turnMatrix2 h 1 0 = if h.toNat % 2 = 1 then -2 else 2 := by
  refine ⟨by rw [← orthMatrix2_spec]; exact orthMatrix2_orth h, ?_⟩
  have l : (directions2 (firstOf12 h)).1 ^ 2 + (directions2 (firstOf12 h)).2 ^ 2 = 2 := grad2_len (firstOf12 h)
  unfold turnMatrix2
  split_ifs <;> simp <;> nlinarith

/-- The matrices of the 3D orthogonal scheme are √6 times orthogonal matrices. -/
theorem C45_turn3 (h : I32) : turnMatrix3 h * (turnMatrix3 h)ᵀ = (6 : ℝ) • 1 := by
  rw [← orthMatrix3_spec]; exact orthMatrix3_orth h

/-- 4D, orthogonal scheme, partial: the contribution is again falloff × matrix × offset, with the matrices of the specification.  Missing: the matrices should be orthogonal and
independent of the feature flags; see `C45_bases4`, `C45_matrix4`, `C45_levels_differ` and `C45_axes_repeat`. -/
theorem C45_contribution4_partial (ft : Feat) (h : I32) (hm : h.msb = false) (f v : Fin 4 → ℝ) (m : ℝ) :
    applyContribution .orthogonalGradientMatrix ft h (List.ofFn f) m (List.ofFn v) = List.ofFn fun k => v k + m * (gridMatrix4 (basisOf ft) h *ᵥ f) k := by
  rw [← orthMatrix4_eq ft h hm]
  exact applyContribution_eq (.inr (.inr rfl)) .orthogonalGradientMatrix ft h hm f v m

/-- 4D: all twenty bases are orthogonal (to 12 decimals) on AVX512; on AVX2 just the eight that distinguish one column, on all other instruction sets just the twelve that distinguish
two. -/
theorem C45_bases4 (k : Fin 20) :
    NearlyOrthogonal (basis512 k) ∧ (NearlyOrthogonal (basis256 k) ↔ ¬ (4 ≤ k ∧ k < 16)) ∧ (NearlyOrthogonal (basisGeneric k) ↔ 4 ≤ k ∧ k < 16) :=
  ⟨near512 k, near256_iff k, nearGeneric_iff k⟩

/-- 4D: when the hash assigns different rows of the basis to different axes, the matrix of the grid point is as orthogonal as the basis. -/
theorem C45_matrix4 (basis : Fin 20 → Matrix (Fin 4) (Fin 4) ℝ) (h : I32) (hb : NearlyOrthogonal (basis (firstOf20 h))) (hp : Function.Injective (axisRow h)) :
    NearlyOrthogonal (gridMatrix4 basis h) := by
  intro i j
  have e : gridMatrix4 basis h i ⬝ᵥ gridMatrix4 basis h j = basis (firstOf20 h) (axisRow h i) ⬝ᵥ basis (firstOf20 h) (axisRow h j) := by
    have hr : ∀ i, gridMatrix4 basis h i = (if h.toNat % 2 = 1 then -1 else 1 : ℝ) • (basis (firstOf20 h) (axisRow h i) : Fin 4 → ℝ) := fun i => rfl
    rw [hr, hr, smul_dotProduct, dotProduct_smul, smul_smul]
    split_ifs <;> simp
  have := hb (axisRow h i) (axisRow h j)
  rw [e]
  simp only [hp.eq_iff] at this
  exact this

/-- Hashes that do, and a hash that does not. -/
example : Function.Injective (axisRow 0) ∧ Function.Injective (axisRow 0x12345678) ∧ ¬ Function.Injective (axisRow (gridHash 9 (0 : Fin 4 → ℤ))) := by
  unfold Function.Injective; decide

/-- Every hash the warps pass to these functions has 31 bits. -/
example (seed : I32) (v : Fin 3 → ℤ) : (gridHash seed v).msb = false := C25_mix_nonneg seed _
/-- A concrete matrix. -/
example : matrix2 .gradientOuterProduct 5 = !![-1 * √3, -1 * 1; √3 * √3, √3 * 1] := by
  have e1 : firstOf12 5 = 0 := by decide
  have e2 : secondOf12 5 = 6 := by decide
  rw [matrix2, outerMatrix2, e1, e2]
  ext i j
  fin_cases i <;> fin_cases j <;> rfl

/-! ## The whole warp -/

theorem simplexBounding_gain {s : Scheme} (hn : n = 2 ∨ n = 3 ∨ n = 4) : simplexBounding s n = simplexGain s n := by
  cases s <;> rcases hn with rfl | rfl | rfl <;> norm_num [simplexBounding, simplexGain]
theorem superBounding_gain {s : Scheme} (hn : n = 2 ∨ n = 3 ∨ n = 4) : superBounding s n = superGain s n := by
  cases s <;> rcases hn with rfl | rfl | rfl <;> norm_num [superBounding, superGain]

/-- **C45**, 2D: a warp node evaluates its source, with the caller's seed, at the position moved by amplitude × bounding constant × axis scale × the sum over *all* grid points of
falloff × matrix × offset.  The radius² of the falloff is 1/2 (Simplex) or 2/3 (SuperSimplex).  In DomainWarpSimplex the seed offset is added twice. -/
theorem C45_warp2 (s : Scheme) (ft : Feat) (so : I32) (axisScale : Nat → ℝ) (scale : ℝ) (amplitude source : Src) (seed : I32) (x : Fin 2 → ℝ) (hx : Fits scale x) :
    domainWarp (simplexWarp s ft so axisScale) so scale amplitude source seed (List.ofFn x) =
      source seed (List.ofFn fun k => x k + amplitude seed (List.ofFn x) * (simplexGain s 2 * axisScale k * gridVector (matrix2 s) (seed + so + so) (1 / 2) (fun i => x i / scale) k)) ∧
    domainWarp (superSimplexWarp s ft axisScale) so scale amplitude source seed (List.ofFn x) =
      source seed (List.ofFn fun k => x k + amplitude seed (List.ofFn x) * (superGain s 2 * axisScale k * gridVector (matrix2 s) (seed + so) (2 / 3) (fun i => x i / scale) k)) := by
  rw [← simplexBounding_gain (.inl rfl), ← superBounding_gain (.inl rfl)]
  have hs := safe_of_bound (.inl rfl) _ hx
  simp only [domainWarp, scale_pos]
  rw [simplexWarp_eq (.inl rfl), superSimplexWarp_eq (.inl rfl), simplexVec2 ft s _ _ hs, superVec2 ft s _ _ hs, matrices2_spec]
  simp [orient]

/-- **C45**, 3D SuperSimplex: likewise, with the matrices of the 3D specification and the falloff halved before it is raised to the fourth power. -/
theorem C45_super3 (s : Scheme) (ft : Feat) (so : I32) (axisScale : Nat → ℝ) (scale : ℝ) (amplitude source : Src) (seed : I32) (x : Fin 3 → ℝ) (hx : Fits scale x) :
    domainWarp (superSimplexWarp s ft axisScale) so scale amplitude source seed (List.ofFn x) =
      source seed (List.ofFn fun k => x k + amplitude seed (List.ofFn x) *
        (superGain s 3 * axisScale k * (backMirror s (gridVector (gridMatrix3 s) (seed + so) (3 / 4) fun i => x i / scale) k / 16))) := by
  rw [← superBounding_gain (.inr (.inl rfl)), ← matrices3_spec]
  have hs := safe_of_bound (.inr (.inl rfl)) _ hx
  simp only [domainWarp, scale_pos]
  rw [superSimplexWarp_eq (.inr (.inl rfl)), superVec3 ft s _ _ hs]
  simp only [orient_mirror]

theorem simplex_sum (hn : n = 3 ∨ n = 4) (s : Scheme) (ft : Feat) (so : I32) (axisScale : Nat → ℝ) (scale : ℝ) (amplitude source : Src) (seed : I32) (x : Fin n → ℝ) (hx : Fits scale x) :
    ∃ t : Finset (Fin n → ℤ), (∀ v, distSq (fun i => x i / scale) (gridPoint v) < 1 / 2 → v ∈ t) ∧
    domainWarp (simplexWarp s ft so axisScale) so scale amplitude source seed (List.ofFn x) =
      source seed (List.ofFn fun k => x k + amplitude seed (List.ofFn x) *
        (simplexGain s n * axisScale k * orient (-1) s (∑ v ∈ t, vecContribution (matrices ft s n) (seed + so + so) (3 / 5) (fun i => x i / scale) v) k)) := by
  have hn' : n = 2 ∨ n = 3 ∨ n = 4 := .inr hn
  rw [← simplexBounding_gain hn']
  obtain ⟨t, h1, h2⟩ := simplexVec_sum hn' ft s (seed + so + so) (fun i => x i / scale) (safe_of_bound hn' _ hx)
  refine ⟨t, h1, ?_⟩
  simp only [domainWarp, scale_pos]
  rw [simplexWarp_eq hn', h2]
  have : simplexRadiusSq n = 3 / 5 := by rcases hn with rfl | rfl <;> norm_num [simplexRadiusSq]
  simp only [this]

theorem vecContribution_congr {M N : I32 → Matrix (Fin n) (Fin n) ℝ} (h : ∀ k : I32, k.msb = false → M k = N k) (seed : I32) (r2 : ℝ) (p : Fin n → ℝ) (v : Fin n → ℤ) :
    vecContribution M seed r2 p v = vecContribution N seed r2 p v := by
  unfold vecContribution
  rw [h (gridHash seed v) (C25_mix_nonneg seed _)]

/-- **C45**, 3D DomainWarpSimplex, partial: the warp vector is a sum over grid points that include all those closer than √(1/2).  Missing: the grid points between
there and the falloff radius √(3/5), as for Simplex noise (`C44_simplex3_jumps`); the outer product scheme "mirrors" the result by subtracting the *whole* sum of its
components from each, which is no reflection (`C45_not_a_reflection`). -/
theorem C45_simplex3_partial (s : Scheme) (ft : Feat) (so : I32) (axisScale : Nat → ℝ) (scale : ℝ) (amplitude source : Src) (seed : I32) (x : Fin 3 → ℝ) (hx : Fits scale x) :
    ∃ t : Finset (Fin 3 → ℤ), (∀ v, distSq (fun i => x i / scale) (gridPoint v) < 1 / 2 → v ∈ t) ∧
    domainWarp (simplexWarp s ft so axisScale) so scale amplitude source seed (List.ofFn x) =
      source seed (List.ofFn fun k => x k + amplitude seed (List.ofFn x) *
        (simplexGain s 3 * axisScale k * orient (-1) s (∑ v ∈ t, vecContribution (gridMatrix3 s) (seed + so + so) (3 / 5) (fun i => x i / scale) v) k)) := by
  rw [← matrices3_spec]
  exact simplex_sum (.inl rfl) s ft so axisScale scale amplitude source seed x hx

/-- **C45**, 4D DomainWarpSimplex, partial: likewise, with the matrices that the specification lists for the three instruction sets. -/
theorem C45_simplex4_partial (s : Scheme) (ft : Feat) (so : I32) (axisScale : Nat → ℝ) (scale : ℝ) (amplitude source : Src) (seed : I32) (x : Fin 4 → ℝ) (hx : Fits scale x) :
    ∃ t : Finset (Fin 4 → ℤ), (∀ v, distSq (fun i => x i / scale) (gridPoint v) < 1 / 2 → v ∈ t) ∧
    domainWarp (simplexWarp s ft so axisScale) so scale amplitude source seed (List.ofFn x) =
      source seed (List.ofFn fun k => x k + amplitude seed (List.ofFn x) *
        (simplexGain s 4 * axisScale k * ∑ v ∈ t, vecContribution (gridMatrixOf4 ft s) (seed + so + so) (3 / 5) (fun i => x i / scale) v k)) := by
  obtain ⟨t, h1, h2⟩ := simplex_sum (.inr rfl) s ft so axisScale scale amplitude source seed x hx
  refine ⟨t, h1, h2.trans ?_⟩
  simp only [orient, Nat.reduceEqDiff, and_false, if_false, Finset.sum_apply]
  have : ∀ seed p v, vecContribution (matrices ft s 4) seed (3 / 5) p v = vecContribution (gridMatrixOf4 ft s) seed (3 / 5) p v :=
    fun seed p v => vecContribution_congr (matrices4_eq ft s) _ _ _ _
  simp only [this]

/-- **C45**, 4D DomainWarpSuperSimplex, partial: a sum over grid points that include all those closer than √(18/25).  Missing: those up to the falloff radius √(4/5), as for
SuperSimplex noise (`C44_super4_jumps`), and the independence of the feature flags. -/
theorem C45_super4_partial (s : Scheme) (ft : Feat) (so : I32) (axisScale : Nat → ℝ) (scale : ℝ) (amplitude source : Src) (seed : I32) (x : Fin 4 → ℝ) (hx : Fits scale x) :
    ∃ t : Finset (Fin 4 → ℤ), (∀ v, distSq (fun i => x i / scale) (gridPoint v) < 18 / 25 → v ∈ t) ∧
    domainWarp (superSimplexWarp s ft axisScale) so scale amplitude source seed (List.ofFn x) =
      source seed (List.ofFn fun k => x k + amplitude seed (List.ofFn x) *
        (superGain s 4 * axisScale k * ((∑ v ∈ t, vecContribution (gridMatrixOf4 ft s) (seed + so) (4 / 5) (fun i => x i / scale) v k) / 16))) := by
  rw [← superBounding_gain (.inr (.inr rfl))]
  obtain ⟨t, h1, h2⟩ := superVec4_sum ft s (seed + so) (fun i => x i / scale) (safe_of_bound (.inr (.inr rfl)) _ hx)
  refine ⟨t, h1, ?_⟩
  simp only [domainWarp, scale_pos]
  rw [superSimplexWarp_eq (.inr (.inr rfl)), h2]
  have : ∀ seed p v, vecContribution (matrices4 ft s) seed (4 / 5) p v = vecContribution (gridMatrixOf4 ft s) seed (4 / 5) p v :=
    fun seed p v => vecContribution_congr (matrices4_eq ft s) _ _ _ _
  simp only [this]
  simp [orient]

example : Fits 100 (![12, -345, 678.5] : Fin 3 → ℝ) := by intro i; fin_cases i <;> norm_num [abs_of_pos, abs_of_neg]

/-! ## Consequences -/

theorem getD_ofFn (f : Fin n → ℝ) (k : Fin n) : (List.ofFn f).getD k 0 = f k := by simp

/-- **C45**: at a fixed amplitude, the position a source is evaluated at moves continuously with the position: no seams, in 2D for both warps and in 3D for SuperSimplex. -/
theorem C45_continuous (s : Scheme) (ft : Feat) (so : I32) (axisScale : Nat → ℝ) (seed : I32) (amp : ℝ) :
    ContinuousOn (fun x : Fin 2 → ℝ => fun k : Fin 2 => (simplexWarp s ft so axisScale seed amp (List.ofFn x) (List.ofFn x)).1.getD k 0) {x | Fits 1 x} ∧
    ContinuousOn (fun x : Fin 2 → ℝ => fun k : Fin 2 => (superSimplexWarp s ft axisScale seed amp (List.ofFn x) (List.ofFn x)).1.getD k 0) {x | Fits 1 x} ∧
    ContinuousOn (fun x : Fin 3 → ℝ => fun k : Fin 3 => (superSimplexWarp s ft axisScale seed amp (List.ofFn x) (List.ofFn x)).1.getD k 0) {x | Fits 1 x} := by
  have fits : ∀ {n : Nat} {x : Fin n → ℝ}, Fits 1 x → ∀ i, |x i| ≤ 2 ^ 28 := fun h i => by simpa using h i
  have cont : ∀ {n : Nat} (c : ℝ) (w : (Fin n → ℝ) → Fin n → ℝ), Continuous w → Continuous fun x : Fin n → ℝ => fun k : Fin n => x k + amp * (c * axisScale k * w x k) := by
    intro n c w hw; refine continuous_pi fun k => ?_
    have := (continuous_apply k).comp hw
    exact (continuous_apply k).add (continuous_const.mul (continuous_const.mul this))
  have hor : ∀ {n : Nat} (c : ℝ) (w : (Fin n → ℝ) → Fin n → ℝ), Continuous w → Continuous fun x => orient c s (w x) := by
    intro n c w hw
    unfold orient; split
    · refine continuous_pi fun k => ?_
      have h := fun j => (continuous_apply j).comp hw
      exact (h k).add (continuous_const.mul (continuous_finsetSum _ fun j _ => h j))
    · exact hw
  refine ⟨?_, ?_, ?_⟩
  · refine (cont (simplexBounding s 2) _ (hor (-1) _ (gridVector_continuous (matrices2 s) (seed + so) (1 / 2)))).continuousOn.congr fun x hx => ?_
    funext k
    rw [simplexWarp_eq (.inl rfl), simplexVec2 ft s _ _ (safe_of_bound (.inl rfl) _ (fits hx))]; simp only [getD_ofFn]
  · refine (cont (superBounding s 2) _ (hor (-2 / 3) _ (gridVector_continuous (matrices2 s) seed (2 / 3)))).continuousOn.congr fun x hx => ?_
    funext k
    rw [superSimplexWarp_eq (.inl rfl), superVec2 ft s _ _ (safe_of_bound (.inl rfl) _ (fits hx))]; simp only [getD_ofFn]
  · refine (cont (superBounding s 3) _ (hor (-2 / 3) (fun x k => gridVector (matrices3 s) seed (3 / 4) x k / 16) ?_)).continuousOn.congr fun x hx => ?_
    · refine continuous_pi fun k => ?_
      exact ((continuous_apply k).comp (gridVector_continuous (matrices3 s) seed (3 / 4))).div_const 16
    · funext k
      rw [superSimplexWarp_eq (.inr (.inl rfl)), superVec3 ft s _ _ (safe_of_bound (.inr (.inl rfl)) _ (fits hx))]; simp only [getD_ofFn]

/-- **C45**: in 2D and 3D, and in 4D with the outer product, the warps do not depend on the instruction set - here without any bound on the position.  (Exact arithmetic.) -/
theorem C45_level_independent (s : Scheme) (hn : n = 2 ∨ n = 3 ∨ n = 4 ∧ s = .gradientOuterProduct) (ft ft' : Feat) (so : I32) (axisScale : Nat → ℝ) (seed : I32) (amp : ℝ)
    (p o : Fin n → ℝ) :
    simplexWarp s ft so axisScale seed amp (List.ofFn p) (List.ofFn o) = simplexWarp s ft' so axisScale seed amp (List.ofFn p) (List.ofFn o) ∧
    superSimplexWarp s ft axisScale seed amp (List.ofFn p) (List.ofFn o) = superSimplexWarp s ft' axisScale seed amp (List.ofFn p) (List.ofFn o) := by
  have hn' : n = 2 ∨ n = 3 ∨ n = 4 := by rcases hn with h | h | ⟨h, -⟩ <;> simp [h]
  have e : matrices ft s n = matrices ft' s n := by rcases hn with rfl | rfl | ⟨rfl, rfl⟩ <;> simp only [matrices, matrices4]
  have e1 : ∀ seed, simplexVec ft s seed p = simplexVec ft' s seed p := fun seed => by unfold simplexVec; rw [e]
  have e2 : ∀ seed, superVec ft s seed p = superVec ft' s seed p := fun seed => by unfold superVec; rw [e]
  constructor
  · rw [simplexWarp_eq hn', simplexWarp_eq hn', e1]
  · rw [superSimplexWarp_eq hn', superSimplexWarp_eq hn', e2]

/-- **C45**: amplitude 0 leaves the source untouched, in every dimension. -/
theorem C45_zero_amplitude (hn : n = 2 ∨ n = 3 ∨ n = 4) (s : Scheme) (ft : Feat) (so : I32) (axisScale : Nat → ℝ) (scale : ℝ) (amplitude source : Src) (seed : I32) (x : Fin n → ℝ)
    (h : amplitude seed (List.ofFn x) = 0) :
    domainWarp (simplexWarp s ft so axisScale) so scale amplitude source seed (List.ofFn x) = source seed (List.ofFn x) ∧
    domainWarp (superSimplexWarp s ft axisScale) so scale amplitude source seed (List.ofFn x) = source seed (List.ofFn x) := by
  simp only [domainWarp, scale_pos]
  rw [simplexWarp_eq hn, superSimplexWarp_eq hn, h]
  simp

/-- **C45**: the displacement is proportional to the amplitude, and the strength a warp reports to a fractal is the squared length of the displacement at amplitude 1. -/
theorem C45_linear (hn : n = 2 ∨ n = 3 ∨ n = 4) (s : Scheme) (ft : Feat) (so : I32) (axisScale : Nat → ℝ) (seed : I32) (p : Fin n → ℝ) :
    (∃ d : Fin n → ℝ, ∀ amp (o : Fin n → ℝ), simplexWarp s ft so axisScale seed amp (List.ofFn p) (List.ofFn o) = (List.ofFn fun k => o k + amp * d k, ∑ k, d k ^ 2)) ∧
    (∃ d : Fin n → ℝ, ∀ amp (o : Fin n → ℝ), superSimplexWarp s ft axisScale seed amp (List.ofFn p) (List.ofFn o) = (List.ofFn fun k => o k + amp * d k, ∑ k, d k ^ 2)) :=
  ⟨⟨_, fun amp o => simplexWarp_eq hn s ft so axisScale seed amp p o⟩, ⟨_, fun amp o => superSimplexWarp_eq hn s ft axisScale seed amp p o⟩⟩

/-- **C45**: an axis with scale 0 is not warped. -/
theorem C45_axis_scale_zero (hn : n = 2 ∨ n = 3 ∨ n = 4) (s : Scheme) (ft : Feat) (so : I32) (axisScale : Nat → ℝ) (seed : I32) (amp : ℝ) (p o : Fin n → ℝ) (k : Fin n) (h : axisScale k = 0) :
    (simplexWarp s ft so axisScale seed amp (List.ofFn p) (List.ofFn o)).1[(k : Nat)]? = some (o k) ∧
    (superSimplexWarp s ft axisScale seed amp (List.ofFn p) (List.ofFn o)).1[(k : Nat)]? = some (o k) := by
  rw [simplexWarp_eq hn, superSimplexWarp_eq hn]
  simp [h]

/-! ## Where C45 fails -/

/-- Where C45 fails: with the default scheme, the 4D DomainWarpSimplex computes three different results on AVX512, on AVX2 and on everything else.  Here: seed 0, feature size 1,
amplitude 1, at (1/10, 0, 0, 0), with the source that returns the first coordinate. -/
theorem C45_levels_differ (ft512 ft256 ft : Feat) (h512 : ft512.avx512 = true) (h256 : ft256.avx512 = false ∧ ft256.avx2 = true) (h : ft.avx512 = false ∧ ft.avx2 = false) :
    let out := fun level => domainWarp (simplexWarp .orthogonalGradientMatrix level 0 fun _ => 1) 0 1 (Src.const 1) (fun _ p => p.getD 0 0) 0 (List.ofFn ![1 / 10, 0, 0, (0 : ℝ)])
    out ft512 ≠ out ft256 ∧ out ft512 ≠ out ft ∧ out ft256 ≠ out ft := by
  have key : ∀ level, domainWarp (simplexWarp .orthogonalGradientMatrix level 0 fun _ => 1) 0 1 (Src.const 1) (fun _ p => p.getD 0 0) 0 (List.ofFn ![1 / 10, 0, 0, (0 : ℝ)]) =
      1 / 10 + simplexBounding .orthogonalGradientMatrix 4 * ((59 / 100) ^ 4 * (orthMatrix4 level 0 0 0 * (1 / 10))) := by
    intro level
    simp only [domainWarp, scale_pos]
    rw [simplexWarp_eq (.inr (.inr rfl)), simplexVec_near4 _ _ _ _ (by simp [Fin.sum_univ_four]; norm_num)]
    have hh : gridHash (0 + 0 + 0) (0 : Fin 4 → ℤ) = 0 := by decide
    have hg : gridPoint (0 : Fin 4 → ℤ) = 0 := by funext i; simp [gridPoint]
    rw [vecContribution, hh, hg]
    simp [orient, Src.const, distSq, Fin.sum_univ_four, rampArg, mulVec, dotProduct, matrices, matrices4]
    norm_num
  have hb : simplexBounding .orthogonalGradientMatrix 4 ≠ 0 := by norm_num [simplexBounding]
  have neq : ∀ a b : ℝ, a ≠ b → (1 / 10 : ℝ) + simplexBounding .orthogonalGradientMatrix 4 * ((59 / 100) ^ 4 * (a * (1 / 10))) ≠
      1 / 10 + simplexBounding .orthogonalGradientMatrix 4 * ((59 / 100) ^ 4 * (b * (1 / 10))) := by
    intro a b hab e
    apply hab
    have := mul_left_cancel₀ hb (add_left_cancel e)
    linarith
  obtain ⟨e1, e2, e3⟩ := orthMatrix4_zero
  have s0 := skew4_pos
  simp only [key, e1 ft512 h512, e2 ft256 h256, e3 ft h]
  refine ⟨neq _ _ ?_, neq _ _ ?_, neq _ _ ?_⟩ <;> intro e <;> norm_num at e <;> linarith

/-- All three kinds of flags exist. -/
example : ∃ a b c : Feat, a.avx512 = true ∧ (b.avx512 = false ∧ b.avx2 = true) ∧ (c.avx512 = false ∧ c.avx2 = false) :=
  ⟨⟨true, true, true, true, true⟩, ⟨true, true, true, true, false⟩, ⟨true, true, false, false, false⟩, by decide⟩

/-- Where C45 fails: in 4D the default scheme assigns rows of the matrix to axes not by a permutation.  With seed 9 all positions within 1/10 of the origin are moved by the same
amount along the first, second and fourth axis, for every instruction set: the matrix is not orthogonal. -/
theorem C45_axes_repeat (ft : Feat) (amp : ℝ) (p : Fin 4 → ℝ) (hp : ∑ i, p i ^ 2 ≤ 1 / 100) : ∃ a b : ℝ,
    (simplexWarp .orthogonalGradientMatrix ft 0 (fun _ => 1) 9 amp (List.ofFn p) (List.ofFn p)).1 = [p 0 + a, p 1 + a, p 2 + b, p 3 + a] := by
  rw [simplexWarp_eq (.inr (.inr rfl)), simplexVec_near4 _ _ _ _ hp]
  obtain ⟨r1, r2⟩ := orthMatrix4_nine ft
  obtain ⟨w, hw⟩ : ∃ w, w = vecContribution (matrices ft .orthogonalGradientMatrix 4) (9 + 0) (3 / 5) p 0 := ⟨_, rfl⟩
  have hm : matrices ft .orthogonalGradientMatrix 4 (gridHash (9 + 0) 0) = orthMatrix4 ft (gridHash (9 + 0) (0 : Fin 4 → ℤ)) := rfl
  have w1 : w 1 = w 0 := by rw [hw]; simp only [vecContribution, Pi.smul_apply, mulVec, hm, r1]
  have w3 : w 3 = w 0 := by rw [hw]; simp only [vecContribution, Pi.smul_apply, mulVec, hm, r2]
  rw [← hw]
  refine ⟨amp * (simplexBounding .orthogonalGradientMatrix 4 * 1 * w 0), amp * (simplexBounding .orthogonalGradientMatrix 4 * 1 * w 2), ?_⟩
  simp only [ofFn4, orient, reduceCtorEq, false_and, if_false, w1, w3]

/-- Where C45 fails: the "mirroring" of the 3D DomainWarpSimplex with outer products (subtracting the whole sum from every component) is no reflection: it doubles diagonal vectors.
The correct one, `mirror`, is what DomainWarpSuperSimplex does. -/
theorem C45_not_a_reflection :
    (∀ v : Fin 3 → ℝ, orient (-2 / 3) .gradientOuterProduct v = mirror v ∧ ∑ k, mirror v k ^ 2 = ∑ k, v k ^ 2) ∧
    orient (-1) .gradientOuterProduct (![1, 1, 1] : Fin 3 → ℝ) = ![-2, -2, -2] := by
  refine ⟨fun v => ⟨?_, ?_⟩, ?_⟩
  · funext k; simp [orient, mirror]; ring
  · simp [mirror, Fin.sum_univ_three]; ring
  · funext k; fin_cases k <;> simp [orient, Fin.sum_univ_three] <;> norm_num

end
end FastNoise.WarpSimplex
