import Verif.SimplexRaw
import Verif.SimplexJump
import Verif.BasicProps
/-!
# C38 and C44: Simplex and SuperSimplex noise

The specification is in `Verif.SimplexSpec`.
-/
namespace FastNoise.Simplex
open FastNoise.Hash FastNoise.Num FastNoise.Basic FastNoise.Gradient

noncomputable section

variable {n : Nat}

theorem simplexBound_peak (hn : n = 2 ∨ n = 3 ∨ n = 4) : simplexBound n = simplexPeak n := by
  rcases hn with rfl | rfl | rfl <;> norm_num [simplexBound, simplexPeak]
theorem superBound_peak (hn : n = 2 ∨ n = 3 ∨ n = 4) : superBound n = superPeak n := by
  rcases hn with rfl | rfl | rfl <;> norm_num [superBound, superPeak]

/-- **C38**: in 2, 3 and 4 dimensions, whatever the feature flags, settings, seed and position (also where skewed coordinates are equal), Simplex noise finds a simplex
of the grid that contains the position - a base and an order of the axes, a permutation - and adds up the contributions of exactly its `n + 1` corners. -/
theorem C38_simplex_sum (hn : n = 2 ∨ n = 3 ∨ n = 4) (ft : Feat) (r : Range ℝ) (scale : ℝ) (seedOffset seed : I32) (x : Fin n → ℝ) (hx : Fits scale x) :
    ∃ (b : Fin n → ℤ) (order : Equiv.Perm (Fin n)), InSimplex (fun i => x i / scale) b order ∧
      simplex ft r scale seedOffset seed (List.ofFn x) =
        r.scaleOutput (∑ k : Fin (n + 1), contribution (Lattice.gradDot ft) (seed + seedOffset) (simplexRadiusSq n) (fun i => x i / scale) (corner b order k)) (-simplexPeak n) (simplexPeak n) := by
  rw [← simplexBound_peak hn]
  obtain ⟨rank, hs, he⟩ := simplexRaw_sum hn (Lattice.gradDot ft) (seed + seedOffset) (fun i => x i / scale) fun i => (safe_of_bound hn _ hx i).1
  refine ⟨base _, rank, inSimplex_of_sorted _ rank hs, ?_⟩
  rw [← he]
  simp only [simplex, scale_pos, List.length_ofFn]

/-- **C38**: the corners of such a simplex: the first is the base, each following one is one step along one axis away, every axis is stepped along exactly once,
so the last is the base plus one in every coordinate and no two corners coincide. -/
theorem C38_corners (b : Fin n → ℤ) (order : Equiv.Perm (Fin n)) :
    corner b order 0 = b ∧
    (∀ k : Fin n, corner b order (k + 1) = Function.update (corner b order k) (order.symm k) (corner b order k (order.symm k) + 1)) ∧
    corner b order n = (fun i => b i + 1) ∧
    Function.Injective fun k : Fin (n + 1) => corner b order k :=
  ⟨by funext i; simp [corner], fun k => corner_step b order k k.isLt, by funext i; simp [corner], corner_injective b order⟩

/-- A position where all skewed coordinates are equal. -/
example : Fits 100 (![50, 50, 50, 50] : Fin 4 → ℝ) ∧ skewed (fun i => (![50, 50, 50, 50] : Fin 4 → ℝ) i / 100) 0 = skewed (fun i => (![50, 50, 50, 50] : Fin 4 → ℝ) i / 100) 3 := by
  constructor
  · intro i; fin_cases i <;> norm_num [abs_of_pos]
  · simp [skewed]

/-! ## C44: the noise is the sum over the whole grid, hence continuous -/

/-- **C44**, 2D Simplex noise: the value is the sum of the contributions of *all* grid points. -/
theorem C44_simplex2 (ft : Feat) (r : Range ℝ) (scale : ℝ) (seedOffset seed : I32) (x : Fin 2 → ℝ) (hx : Fits scale x) :
    simplex ft r scale seedOffset seed (List.ofFn x) =
      r.scaleOutput (gridNoise (Lattice.gradDot ft) (seed + seedOffset) (simplexRadiusSq 2) fun i => x i / scale) (-simplexPeak 2) (simplexPeak 2) := by
  rw [← simplexBound_peak (.inl rfl)]
  simp only [simplex, scale_pos, List.length_ofFn]
  rw [simplex2_noise (Lattice.gradDot ft) _ _ fun i => (safe_of_bound (.inl rfl) _ hx i).1]
  simp [simplexRadiusSq]

/-- **C44**, 2D SuperSimplex noise. -/
theorem C44_super2 (ft : Feat) (r : Range ℝ) (scale : ℝ) (seedOffset seed : I32) (x : Fin 2 → ℝ) (hx : Fits scale x) :
    superSimplex ft r scale seedOffset seed (List.ofFn x) =
      r.scaleOutput (gridNoise (Lattice.gradDot ft) (seed + seedOffset) (superRadiusSq 2) fun i => x i / scale) (-superPeak 2) (superPeak 2) := by
  rw [← superBound_peak (.inl rfl)]
  simp only [superSimplex, scale_pos, List.length_ofFn]
  rw [ofFn2, superRaw, super2_eq (Lattice.gradDot ft) (seed + seedOffset) (fun i => x i / scale) fun i => (safe_of_bound (.inl rfl) _ hx i).1]
  simp [superRadiusSq]

/-- **C44**, 3D SuperSimplex noise (the code halves the falloff before raising it to the fourth power, hence the factor 1/16). -/
theorem C44_super3 (ft : Feat) (r : Range ℝ) (scale : ℝ) (seedOffset seed : I32) (x : Fin 3 → ℝ) (hx : Fits scale x) :
    superSimplex ft r scale seedOffset seed (List.ofFn x) =
      r.scaleOutput (gridNoise (Lattice.gradDot ft) (seed + seedOffset) (superRadiusSq 3) (fun i => x i / scale) / 16) (-superPeak 3) (superPeak 3) := by
  rw [← superBound_peak (.inr (.inl rfl))]
  simp only [superSimplex, scale_pos, List.length_ofFn]
  rw [ofFn3, superRaw, super3_eq (Lattice.gradDot ft) (seed + seedOffset) (fun i => x i / scale) (safe_of_bound (.inr (.inl rfl)) _ hx)]
  simp [superRadiusSq]

theorem gridNoise_scaled (ft : Feat) (r : Range ℝ) (scale : ℝ) (seed : I32) (r2 c a b : ℝ) :
    Continuous fun x : Fin n → ℝ => r.scaleOutput (gridNoise (Lattice.gradDot ft) seed r2 (fun i => x i / scale) / c) a b := by
  have h1 : Continuous fun x : Fin n → ℝ => gridNoise (Lattice.gradDot ft) seed r2 fun i => x i / scale :=
    (gridNoise_continuous _ (gradDot_rampCont _ ft) seed r2).comp (by fun_prop)
  unfold Range.scaleOutput Num.fma
  fun_prop

/-- **C44**: 2D Simplex noise and 2D and 3D SuperSimplex noise are continuous: no seams between cells. -/
theorem C44_continuous (ft : Feat) (r : Range ℝ) (scale : ℝ) (seedOffset seed : I32) :
    ContinuousOn (fun x : Fin 2 → ℝ => simplex ft r scale seedOffset seed (List.ofFn x)) {x | Fits scale x} ∧
    ContinuousOn (fun x : Fin 2 → ℝ => superSimplex ft r scale seedOffset seed (List.ofFn x)) {x | Fits scale x} ∧
    ContinuousOn (fun x : Fin 3 → ℝ => superSimplex ft r scale seedOffset seed (List.ofFn x)) {x | Fits scale x} := by
  refine ⟨?_, ?_, ?_⟩
  · refine ContinuousOn.congr (gridNoise_scaled ft r scale (seed + seedOffset) (simplexRadiusSq 2) 1 (-simplexPeak 2) (simplexPeak 2)).continuousOn ?_
    intro x hx; simp only [C44_simplex2 ft r scale seedOffset seed x hx, div_one]
  · refine ContinuousOn.congr (gridNoise_scaled ft r scale (seed + seedOffset) (superRadiusSq 2) 1 (-superPeak 2) (superPeak 2)).continuousOn ?_
    intro x hx; simp only [C44_super2 ft r scale seedOffset seed x hx, div_one]
  · refine ContinuousOn.congr (gridNoise_scaled ft r scale (seed + seedOffset) (superRadiusSq 3) 16 (-superPeak 3) (superPeak 3)).continuousOn ?_
    intro x hx; simp only [C44_super3 ft r scale seedOffset seed x hx]

/-- **C44**, 3D and 4D Simplex noise, partial: the noise sums contributions of grid points including all those closer than `√(1/2)`.  Missing: the grid points
between there and the radius `√(3/5)` of the falloff - the property fails, see `C44_simplex3_jumps` and `C44_simplex4_jumps`. -/
theorem C44_simplex_partial (hn : n = 2 ∨ n = 3 ∨ n = 4) (ft : Feat) (r : Range ℝ) (scale : ℝ) (seedOffset seed : I32) (x : Fin n → ℝ) (hx : Fits scale x) :
    ∃ s : Finset (Fin n → ℤ), (∀ v, distSq (fun i => x i / scale) (gridPoint v) < 1 / 2 → v ∈ s) ∧
      simplex ft r scale seedOffset seed (List.ofFn x) =
        r.scaleOutput (∑ v ∈ s, contribution (Lattice.gradDot ft) (seed + seedOffset) (simplexRadiusSq n) (fun i => x i / scale) v) (-simplexPeak n) (simplexPeak n) := by
  rw [← simplexBound_peak hn]
  obtain ⟨rank, hs, he⟩ := simplexRaw_sum hn (Lattice.gradDot ft) (seed + seedOffset) (fun i => x i / scale) fun i => (safe_of_bound hn _ hx i).1
  refine ⟨Finset.univ.image fun k : Fin (n + 1) => corner (base fun i => x i / scale) rank k, ?_, ?_⟩
  · intro v hv
    rw [distSq_gridPoint] at hv
    by_contra hcon
    have := far_corner _ rank hs v hcon
    linarith
  · rw [Finset.sum_image]
    · rw [← he]; simp only [simplex, scale_pos, List.length_ofFn]
    · intro _ _ _ _ e; exact (C38_corners _ rank).2.2.2 e

/-- **C44**, 4D SuperSimplex noise, partial: the noise sums contributions of grid points including all those closer than `√(18/25)`.  Missing: the grid points
between there and the radius `√(4/5)` of the falloff - the property fails, see `C44_super4_jumps`. -/
theorem C44_super4_partial (ft : Feat) (r : Range ℝ) (scale : ℝ) (seedOffset seed : I32) (x : Fin 4 → ℝ) (hx : Fits scale x) :
    ∃ s : Finset (Fin 4 → ℤ), (∀ v, distSq (fun i => x i / scale) (gridPoint v) < 18 / 25 → v ∈ s) ∧
      superSimplex ft r scale seedOffset seed (List.ofFn x) =
        r.scaleOutput ((∑ v ∈ s, contribution (Lattice.gradDot ft) (seed + seedOffset) (superRadiusSq 4) (fun i => x i / scale) v) / 16) (-superPeak 4) (superPeak 4) := by
  rw [← superBound_peak (.inr (.inr rfl))]
  obtain ⟨s, h1, h2⟩ := partial_super4 (seed + seedOffset) _ (safe_of_bound (.inr (.inr rfl)) _ hx)
  refine ⟨s, h1, ?_⟩
  simp only [superSimplex, scale_pos, List.length_ofFn, h2]
  simp [superRadiusSq]

/-! ## Where C44 fails -/

/-- The curve through the point with skewed coordinates `d` along the first axis. -/
def curve (d : Fin n → ℝ) (i : Fin n) (t : ℝ) : Fin n → ℝ := unskew (Function.update d i (d i + t))

theorem curve_continuous (d : Fin n → ℝ) (i : Fin n) : Continuous (curve d i) := by
  unfold curve unskew
  refine continuous_pi fun j => ?_
  have h : ∀ k, Continuous fun t : ℝ => Function.update d i (d i + t) k := by
    intro k
    by_cases hk : k = i
    · subst hk; simp only [Function.update_self]; fun_prop
    · simp only [Function.update_of_ne hk]; fun_prop
  exact (h j).add (continuous_const.mul (continuous_finsetSum _ fun k _ => h k))

theorem base_curve (d : Fin n → ℝ) (i : Fin n) (t : ℝ) (h : ∀ j, 0 ≤ Function.update d i (d i + t) j ∧ Function.update d i (d i + t) j < 1) :
    base (curve d i t) = 0 ∧ frac (curve d i t) = Function.update d i (d i + t) := by
  have e : skewed (curve d i t) = Function.update d i (d i + t) := skewed_unskew _
  have hb : ∀ j, ⌊skewed (curve d i t) j⌋ = 0 := by intro j; rw [e, Int.floor_eq_iff]; exact ⟨by simpa using (h j).1, by simpa using (h j).2⟩
  refine ⟨funext hb, funext fun j => ?_⟩
  simp only [frac]
  rw [hb j, e, Int.cast_zero, sub_zero]

/-- With default settings except a feature size of 1. -/
theorem scale_one (x : Fin n → ℝ) : scalePositions (frequency 1) (List.ofFn x) = List.ofFn x := by
  rw [scale_pos]; simp

theorem scaleOutput_ne {b v w : ℝ} (hb : 0 < b) (h : v ≠ w) : Range.init.scaleOutput v (-b) b ≠ Range.init.scaleOutput w (-b) b := by
  intro e
  simp only [Range.scaleOutput, Range.init, Num.fma] at e
  have : b - -b ≠ 0 := by linarith
  field_simp at e
  apply h; linarith

theorem scaleOutput_comp (G : (Fin n → ℝ) → ℝ) (hG : Continuous G) (a b : ℝ) : Continuous fun p => Range.init.scaleOutput (G p) a b := by
  unfold Range.scaleOutput Num.fma; fun_prop

theorem inRange_of {z : ℝ} (h : 0 ≤ z ∧ z < 1) : Lattice.InRange z := by
  have : ⌊z⌋ = 0 := by rw [Int.floor_eq_iff]; exact ⟨by simpa using h.1, by simpa using h.2⟩
  unfold Lattice.InRange; rw [this]; norm_num

theorem fits_curve (d : Fin 4 → ℝ) (i : Fin 4) (h : ∀ j, 0 ≤ d j ∧ d j ≤ 1) : Fits 1 (curve d i 0) := by
  intro j
  have hk : -1 ≤ squash 4 ∧ squash 4 ≤ 0 := by
    rw [← kUnskew4]
    have e : kUnskew 4 = -1 / (√5 + 5) := by norm_num [kUnskew]
    have := sqrt5_pos
    rw [e]
    constructor
    · rw [le_div_iff₀ (by positivity)]; linarith
    · exact div_nonpos_of_nonpos_of_nonneg (by norm_num) (by positivity)
  rw [curve, add_zero, Function.update_eq_self, div_one, unskew, Fin.sum_univ_four, abs_le]
  have h0 := h 0; have h1 := h 1; have h2 := h 2; have h3 := h 3; have hj := h j
  constructor <;> nlinarith

/-- Where C44 fails: 3D Simplex noise with default settings (feature size 1, seed 0) is not continuous; it jumps at the face between two simplices through the point
(7/24, 7/24, 1/24) (skewed coordinates (1/2, 1/2, 1/4)), for every instruction set. -/
theorem C44_simplex3_jumps (ft : Feat) :
    ¬ContinuousAt (fun x : Fin 3 → ℝ => simplex ft Range.init 1 0 0 (List.ofFn x)) ![7 / 24, 7 / 24, 1 / 24] := by
  obtain ⟨d, hd⟩ : ∃ d : Fin 3 → ℝ, d = ![1 / 2, 1 / 2, 1 / 4] := ⟨_, rfl⟩
  have hpt : ![7 / 24, 7 / 24, 1 / 24] = curve d 0 0 := by
    rw [curve, add_zero, Function.update_eq_self, hd]; funext j
    fin_cases j <;> simp [unskew, Fin.sum_univ_three, squash3] <;> norm_num
  rw [hpt]
  have hb : 0 < simplexBound 3 := by norm_num [simplexBound]
  have hu : ∀ t, Function.update d 0 (d 0 + t) = ![1 / 2 + t, 1 / 2, 1 / 4] := by intro t; rw [hd]; funext j; fin_cases j <;> simp [Function.update_of_ne]
  have hr : ∀ t, -(1 / 4) < t → t < 1 / 4 → ∀ j, 0 ≤ Function.update d 0 (d 0 + t) j ∧ Function.update d 0 (d 0 + t) j < 1 := by
    intro t h1 h2 j; rw [hu]; fin_cases j <;> norm_num <;> constructor <;> linarith
  have key : ∀ t, -(1 / 4) < t → t < 1 / 4 → ∃ rank : Equiv.Perm (Fin 3),
      (∀ i j, rank i < rank j → (![1 / 2 + t, 1 / 2, 1 / 4] : Fin 3 → ℝ) j ≤ (![1 / 2 + t, 1 / 2, 1 / 4] : Fin 3 → ℝ) i) ∧
      simplexRaw (Lattice.gradDot ft) 0 (List.ofFn (curve d 0 t)) = ∑ k : Fin 4, contribution (Lattice.gradDot ft) 0 (3 / 5) (curve d 0 t) (corner 0 rank k) := by
    intro t h1 h2
    obtain ⟨e1, e2⟩ := base_curve d 0 t (hr t h1 h2)
    obtain ⟨rank, hs, he⟩ := simplexRaw_sum (.inr (.inl rfl)) (Lattice.gradDot ft) 0 (curve d 0 t) fun i => by
      rw [curve, skewed_unskew]; exact inRange_of (hr t h1 h2 i)
    rw [e1, show simplexRadiusSq 3 = 3 / 5 by norm_num [simplexRadiusSq]] at he
    rw [e2, hu] at hs
    exact ⟨rank, hs, he⟩
  refine not_continuousAt_of_jump (curve d 0) (curve_continuous d 0)
    (fun p => Range.init.scaleOutput (contribution (Lattice.gradDot ft) 0 (3 / 5) p 0 + contribution (Lattice.gradDot ft) 0 (3 / 5) p ![1, 0, 0] + contribution (Lattice.gradDot ft) 0 (3 / 5) p ![1, 1, 0] +
      contribution (Lattice.gradDot ft) 0 (3 / 5) p ![1, 1, 1]) (-simplexBound 3) (simplexBound 3))
    (fun p => Range.init.scaleOutput (contribution (Lattice.gradDot ft) 0 (3 / 5) p 0 + contribution (Lattice.gradDot ft) 0 (3 / 5) p ![0, 1, 0] + contribution (Lattice.gradDot ft) 0 (3 / 5) p ![1, 1, 0] +
      contribution (Lattice.gradDot ft) 0 (3 / 5) p ![1, 1, 1]) (-simplexBound 3) (simplexBound 3))
    ?_ ?_ (1 / 4) (by norm_num) ?_ ?_ (scaleOutput_ne hb ?_)
  · refine scaleOutput_comp _ ?_ _ _
    exact (((contribution_continuous _ (gradDot_rampCont _ _) _ _ _).add (contribution_continuous _ (gradDot_rampCont _ _) _ _ _)).add (contribution_continuous _ (gradDot_rampCont _ _) _ _ _)).add (contribution_continuous _ (gradDot_rampCont _ _) _ _ _)
  · refine scaleOutput_comp _ ?_ _ _
    exact (((contribution_continuous _ (gradDot_rampCont _ _) _ _ _).add (contribution_continuous _ (gradDot_rampCont _ _) _ _ _)).add (contribution_continuous _ (gradDot_rampCont _ _) _ _ _)).add (contribution_continuous _ (gradDot_rampCont _ _) _ _ _)
  · intro t h1 h2
    obtain ⟨rank, hs, he⟩ := key t (by linarith) h2
    simp only [simplex, scale_one, List.length_ofFn]
    rw [show (0 : I32) + 0 = 0 from rfl, he, Fin.sum_univ_four]
    have r01 : rank 0 < rank 1 := by
      by_contra hc
      have := hs 1 0 (lt_of_le_of_ne (not_lt.mp hc) fun e => by simpa using rank.injective e)
      simp at this; linarith
    have r12 : rank 1 < rank 2 := by
      by_contra hc
      have := hs 2 1 (lt_of_le_of_ne (not_lt.mp hc) fun e => by simpa using rank.injective e)
      have : (1 / 2 : ℝ) ≤ 1 / 4 := this
      norm_num at this
    have h0 : (rank 0 : Nat) = 0 := by have := (rank 2).isLt; rw [Fin.lt_def] at r01 r12; omega
    have h1 : (rank 1 : Nat) = 1 := by have := (rank 2).isLt; rw [Fin.lt_def] at r01 r12; omega
    have h2 : (rank 2 : Nat) = 2 := by have := (rank 2).isLt; rw [Fin.lt_def] at r01 r12; omega
    congr 5 <;> (funext j; fin_cases j <;> simp [corner, h0, h1, h2])
  · intro t h1 h2
    obtain ⟨rank, hs, he⟩ := key t h2 (by linarith)
    simp only [simplex, scale_one, List.length_ofFn]
    rw [show (0 : I32) + 0 = 0 from rfl, he, Fin.sum_univ_four]
    have r01 : rank 1 < rank 0 := by
      by_contra hc
      have := hs 0 1 (lt_of_le_of_ne (not_lt.mp hc) fun e => by simpa using rank.injective e)
      simp at this; linarith
    have r12 : rank 0 < rank 2 := by
      by_contra hc
      have := hs 2 0 (lt_of_le_of_ne (not_lt.mp hc) fun e => by simpa using rank.injective e)
      simp at this; linarith
    have h0 : (rank 1 : Nat) = 0 := by have := (rank 2).isLt; rw [Fin.lt_def] at r01 r12; omega
    have h1 : (rank 0 : Nat) = 1 := by have := (rank 2).isLt; rw [Fin.lt_def] at r01 r12; omega
    have h2 : (rank 2 : Nat) = 2 := by have := (rank 2).isLt; rw [Fin.lt_def] at r01 r12; omega
    congr 5 <;> (funext j; fin_cases j <;> simp [corner, h0, h1, h2])
  · have hsk : skewed (curve d 0 0) = ![1 / 2, 1 / 2, 1 / 4] := by rw [curve, skewed_unskew, hu]; simp
    have g1 : low 4 (hashPrimes 0 [BitVec.ofInt 32 1 * primeX, BitVec.ofInt 32 0 * primeY, BitVec.ofInt 32 0 * primeZ]) = 0 := by decide
    have g2 : low 4 (hashPrimes 0 [BitVec.ofInt 32 0 * primeX, BitVec.ofInt 32 1 * primeY, BitVec.ofInt 32 0 * primeZ]) = 1 := by decide
    have c0 : common3 (0 : Fin (2 ^ 4)) = (1, 1, 0) := rfl
    have c1 : common3 (1 : Fin (2 ^ 4)) = (-1, 1, 0) := rfl
    have e1 : contribution (Lattice.gradDot ft) 0 (3 / 5) (curve d 0 0) ![1, 0, 0] = pow4 (17 / 320) * (-1 / 4) := by
      rw [contribution_eq, term3, hsk, Lattice.gradDot, dotCommon_eq]
      simp only [Matrix.cons_val_zero, Matrix.cons_val_one, Matrix.cons_val, g1, c0, dot3, kUnskew3]
      norm_num
    have e2 : contribution (Lattice.gradDot ft) 0 (3 / 5) (curve d 0 0) ![0, 1, 0] = pow4 (17 / 320) * (-1) := by
      rw [contribution_eq, term3, hsk, Lattice.gradDot, dotCommon_eq]
      simp only [Matrix.cons_val_zero, Matrix.cons_val_one, Matrix.cons_val, g2, c1, dot3, kUnskew3]
      norm_num
    rw [e1, e2]
    intro e
    norm_num [pow4] at e
    try linarith

/-- Where C44 fails: 4D Simplex noise with default settings (feature size 1, seed 0) is not continuous; it jumps at the face between two simplices through the point
with skewed coordinates (3/8, 3/8, 3/20, 1/10). -/
theorem C44_simplex4_jumps (ft : Feat) :
    ∃ x : Fin 4 → ℝ, Fits 1 x ∧ ¬ContinuousAt (fun x : Fin 4 → ℝ => simplex ft Range.init 1 0 0 (List.ofFn x)) x := by
  obtain ⟨d, hd⟩ : ∃ d : Fin 4 → ℝ, d = ![3 / 8, 3 / 8, 3 / 20, 1 / 10] := ⟨_, rfl⟩
  have hb : 0 < simplexBound 4 := by norm_num [simplexBound]
  have hu : ∀ t, Function.update d 0 (d 0 + t) = ![3 / 8 + t, 3 / 8, 3 / 20, 1 / 10] := by intro t; rw [hd]; funext j; fin_cases j <;> simp [Function.update_of_ne]
  refine ⟨curve d 0 0, fits_curve d 0 (by rw [hd]; intro j; fin_cases j <;> norm_num), ?_⟩
  have hr : ∀ t, -(1 / 8) < t → t < 1 / 8 → ∀ j, 0 ≤ Function.update d 0 (d 0 + t) j ∧ Function.update d 0 (d 0 + t) j < 1 := by
    intro t h1 h2 j; rw [hu]; fin_cases j <;> norm_num <;> constructor <;> linarith
  have key : ∀ t, -(1 / 8) < t → t < 1 / 8 → ∃ rank : Equiv.Perm (Fin 4),
      (∀ i j, rank i < rank j → (![3 / 8 + t, 3 / 8, 3 / 20, 1 / 10] : Fin 4 → ℝ) j ≤ (![3 / 8 + t, 3 / 8, 3 / 20, 1 / 10] : Fin 4 → ℝ) i) ∧
      simplexRaw (Lattice.gradDot ft) 0 (List.ofFn (curve d 0 t)) = ∑ k : Fin 5, contribution (Lattice.gradDot ft) 0 (3 / 5) (curve d 0 t) (corner 0 rank k) := by
    intro t h1 h2
    obtain ⟨e1, e2⟩ := base_curve d 0 t (hr t h1 h2)
    obtain ⟨rank, hs, he⟩ := simplexRaw_sum (.inr (.inr rfl)) (Lattice.gradDot ft) 0 (curve d 0 t) fun i => by
      rw [curve, skewed_unskew]; exact inRange_of (hr t h1 h2 i)
    rw [e1, show simplexRadiusSq 4 = 3 / 5 by norm_num [simplexRadiusSq]] at he
    rw [e2, hu] at hs
    exact ⟨rank, hs, he⟩
  have sorted : ∀ (rank : Equiv.Perm (Fin 4)) (f : Fin 4 → ℝ) (i j : Fin 4), (∀ i j, rank i < rank j → f j ≤ f i) → f j < f i → (rank i : Nat) < rank j := by
    intro rank f i j hs hlt
    by_contra hc
    rcases Nat.lt_or_ge (rank j) (rank i) with h | h
    · have := hs j i h; linarith
    · have : rank i = rank j := Fin.ext (by omega)
      rw [rank.injective this] at hlt; exact lt_irrefl _ hlt
  have cont : ∀ v : Fin 4 → ℤ, Continuous fun p => contribution (Lattice.gradDot ft) 0 (3 / 5) p 0 + contribution (Lattice.gradDot ft) 0 (3 / 5) p v + contribution (Lattice.gradDot ft) 0 (3 / 5) p ![1, 1, 0, 0] +
      contribution (Lattice.gradDot ft) 0 (3 / 5) p ![1, 1, 1, 0] + contribution (Lattice.gradDot ft) 0 (3 / 5) p ![1, 1, 1, 1] := fun v =>
    ((((contribution_continuous _ (gradDot_rampCont _ _) _ _ _).add (contribution_continuous _ (gradDot_rampCont _ _) _ _ _)).add (contribution_continuous _ (gradDot_rampCont _ _) _ _ _)).add
      (contribution_continuous _ (gradDot_rampCont _ _) _ _ _)).add (contribution_continuous _ (gradDot_rampCont _ _) _ _ _)
  refine not_continuousAt_of_jump (curve d 0) (curve_continuous d 0)
    (fun p => Range.init.scaleOutput (contribution (Lattice.gradDot ft) 0 (3 / 5) p 0 + contribution (Lattice.gradDot ft) 0 (3 / 5) p ![1, 0, 0, 0] + contribution (Lattice.gradDot ft) 0 (3 / 5) p ![1, 1, 0, 0] +
      contribution (Lattice.gradDot ft) 0 (3 / 5) p ![1, 1, 1, 0] + contribution (Lattice.gradDot ft) 0 (3 / 5) p ![1, 1, 1, 1]) (-simplexBound 4) (simplexBound 4))
    (fun p => Range.init.scaleOutput (contribution (Lattice.gradDot ft) 0 (3 / 5) p 0 + contribution (Lattice.gradDot ft) 0 (3 / 5) p ![0, 1, 0, 0] + contribution (Lattice.gradDot ft) 0 (3 / 5) p ![1, 1, 0, 0] +
      contribution (Lattice.gradDot ft) 0 (3 / 5) p ![1, 1, 1, 0] + contribution (Lattice.gradDot ft) 0 (3 / 5) p ![1, 1, 1, 1]) (-simplexBound 4) (simplexBound 4))
    (scaleOutput_comp _ (cont _) _ _) (scaleOutput_comp _ (cont _) _ _) (1 / 8) (by norm_num) ?_ ?_ (scaleOutput_ne hb ?_)
  · intro t h1 h2
    obtain ⟨rank, hs, he⟩ := key t (by linarith) h2
    simp only [simplex, scale_one, List.length_ofFn]
    rw [show (0 : I32) + 0 = 0 from rfl, he, Fin.sum_univ_five]
    have r01 := sorted rank _ 0 1 hs (show (3 / 8 : ℝ) < 3 / 8 + t by linarith)
    have r12 := sorted rank _ 1 2 hs (show (3 / 20 : ℝ) < 3 / 8 by norm_num)
    have r23 := sorted rank _ 2 3 hs (show (1 / 10 : ℝ) < 3 / 20 by norm_num)
    have h0 : (rank 0 : Nat) = 0 := by have := (rank 3).isLt; omega
    have h1 : (rank 1 : Nat) = 1 := by have := (rank 3).isLt; omega
    have h2 : (rank 2 : Nat) = 2 := by have := (rank 3).isLt; omega
    have h3 : (rank 3 : Nat) = 3 := by have := (rank 3).isLt; omega
    congr 6 <;> (funext j; fin_cases j <;> simp [corner, h0, h1, h2, h3])
  · intro t h1 h2
    obtain ⟨rank, hs, he⟩ := key t h2 (by linarith)
    simp only [simplex, scale_one, List.length_ofFn]
    rw [show (0 : I32) + 0 = 0 from rfl, he, Fin.sum_univ_five]
    have r01 := sorted rank _ 1 0 hs (show (3 / 8 + t : ℝ) < 3 / 8 by linarith)
    have r12 := sorted rank _ 0 2 hs (show (3 / 20 : ℝ) < 3 / 8 + t by linarith)
    have r23 := sorted rank _ 2 3 hs (show (1 / 10 : ℝ) < 3 / 20 by norm_num)
    have h0 : (rank 1 : Nat) = 0 := by have := (rank 3).isLt; omega
    have h1 : (rank 0 : Nat) = 1 := by have := (rank 3).isLt; omega
    have h2 : (rank 2 : Nat) = 2 := by have := (rank 3).isLt; omega
    have h3 : (rank 3 : Nat) = 3 := by have := (rank 3).isLt; omega
    congr 6 <;> (funext j; fin_cases j <;> simp [corner, h0, h1, h2, h3])
  · have hsk : skewed (curve d 0 0) = ![3 / 8, 3 / 8, 3 / 20, 1 / 10] := by rw [curve, skewed_unskew, hu]; simp
    have g1 : low 5 (hashPrimes 0 [BitVec.ofInt 32 1 * primeX, BitVec.ofInt 32 0 * primeY, BitVec.ofInt 32 0 * primeZ, BitVec.ofInt 32 0 * primeW]) = 0 := by decide
    have g2 : low 5 (hashPrimes 0 [BitVec.ofInt 32 0 * primeX, BitVec.ofInt 32 1 * primeY, BitVec.ofInt 32 0 * primeZ, BitVec.ofInt 32 0 * primeW]) = 1 := by decide
    have c0 : perlin4 (0 : Fin (2 ^ 5)) = (0, 1, 1, 1) := by simp [perlin4, sgn]
    have c1 : perlin4 (1 : Fin (2 ^ 5)) = (0, -1, 1, 1) := by
      have t1 : Nat.testBit 1 1 = false := by decide
      have t2 : Nat.testBit 1 2 = false := by decide
      simp [perlin4, sgn, t1, t2]
    have e1 : contribution (Lattice.gradDot ft) 0 (3 / 5) (curve d 0 0) ![1, 0, 0, 0] = pow4 (29 / 800) * (5 / 8) := by
      rw [contribution_eq, term4, hsk, Lattice.gradDot, dotPerlin4_eq]
      simp only [Matrix.cons_val_zero, Matrix.cons_val_one, Matrix.cons_val, g1, c0, dot4]
      norm_num
    have e2 : contribution (Lattice.gradDot ft) 0 (3 / 5) (curve d 0 0) ![0, 1, 0, 0] = pow4 (29 / 800) * (7 / 8) := by
      rw [contribution_eq, term4, hsk, Lattice.gradDot, dotPerlin4_eq]
      simp only [Matrix.cons_val_zero, Matrix.cons_val_one, Matrix.cons_val, g2, c1, dot4]
      norm_num
    rw [e1, e2]
    intro e
    norm_num [pow4] at e
    try linarith

/-- Where C44 fails: 4D SuperSimplex noise with default settings (feature size 1, seed 0) is not continuous: it jumps where the nearest grid point changes at the point
with skewed coordinates (317/400, 19/50, 39/100, 2/5), because the grid point (2,1,1,1), at a squared distance below 0.73, is taken into account on one side only. -/
theorem C44_super4_jumps (ft : Feat) :
    ∃ x : Fin 4 → ℝ, Fits 1 x ∧ ¬ContinuousAt (fun x : Fin 4 → ℝ => superSimplex ft Range.init 1 0 0 (List.ofFn x)) x := by
  obtain ⟨d, hd⟩ : ∃ d : Fin 4 → ℝ, d = ![317 / 400, 19 / 50, 39 / 100, 2 / 5] := ⟨_, rfl⟩
  have hb : 0 < superBound 4 := by norm_num [superBound]
  have hu : ∀ t, Function.update d 0 (d 0 + t) = ![317 / 400 + t, 19 / 50, 39 / 100, 2 / 5] := by intro t; rw [hd]; funext j; fin_cases j <;> simp [Function.update_of_ne]
  refine ⟨curve d 0 0, fits_curve d 0 (by rw [hd]; intro j; fin_cases j <;> norm_num), ?_⟩
  have hr : ∀ t, -(1 / 1000) < t → t < 1 / 1000 → ∀ j, 0 ≤ Function.update d 0 (d 0 + t) j ∧ Function.update d 0 (d 0 + t) j < 1 := by
    intro t h1 h2 j; rw [hu]; fin_cases j <;> norm_num <;> constructor <;> linarith
  have key : ∀ t, -(1 / 1000) < t → t < 1 / 1000 →
      superRaw (Lattice.gradDot ft) 0 (List.ofFn (curve d 0 t)) = (∑ m, contribution (Lattice.gradDot ft) 0 (4 / 5) (curve d 0 t) (step (near4 (curve d 0 t)) (off4 (curve d 0 t)) m)) / 16 := by
    intro t h1 h2
    rw [ofFn4, superRaw]
    refine super4_sum (Lattice.gradDot ft) 0 (curve d 0 t) fun i => ?_
    have hri := hr t h1 h2 i
    rw [curve, skewed_unskew]
    refine ⟨inRange_of hri, ?_⟩
    have : ⌊Function.update d 0 (d 0 + t) i + 1⌋ = 1 := by rw [Int.floor_eq_iff]; push_cast; constructor <;> linarith
    unfold Lattice.InRange; rw [this]; norm_num
  have best : ∀ t, -(1 / 1000) < t → t < 1 / 1000 → ∃ v : Fin 4 → ℤ, (∀ i, v i = 0 ∨ v i = 1) ∧ near4 (curve d 0 t) = v ∧
      off4 (curve d 0 t) = (fun i => (![317 / 400 + t, 19 / 50, 39 / 100, 2 / 5] : Fin 4 → ℝ) i - v i) ∧
      ∀ c : Fin 4 → ℤ, (∀ i, c i = 0 ∨ c i = 1) → score ![317 / 400 + t, 19 / 50, 39 / 100, 2 / 5] c ≤ score ![317 / 400 + t, 19 / 50, 39 / 100, 2 / 5] v := by
    intro t h1 h2
    obtain ⟨e1, e2⟩ := base_curve d 0 t (hr t h1 h2)
    rw [hu] at e2
    refine ⟨_, vec4_bits (nearest4 (frac (curve d 0 t) 0) (frac (curve d 0 t) 1) (frac (curve d 0 t) 2) (frac (curve d 0 t) 3)), ?_, ?_, fun c hc => ?_⟩
    · funext i; simp [near4, e1]
    · funext i; simp [off4, e2]
    · have := nearest4_spec (frac (curve d 0 t)) c hc
      rw [Q_sub, Q_sub, e2] at this
      rw [e2]; unfold score; linarith
  have cont : ∀ s : (Fin 4 → Bool) → Fin 4 → ℤ, Continuous fun p => (∑ m, contribution (Lattice.gradDot ft) 0 (4 / 5) p (s m)) / 16 := fun s =>
    (continuous_finsetSum _ fun m _ => contribution_continuous _ (gradDot_rampCont _ _) _ _ _).div_const _
  refine not_continuousAt_of_jump (curve d 0) (curve_continuous d 0)
    (fun p => Range.init.scaleOutput ((∑ m, contribution (Lattice.gradDot ft) 0 (4 / 5) p (step ![1, 0, 0, 0] ![-(83 / 400), 19 / 50, 39 / 100, 2 / 5] m)) / 16) (-superBound 4) (superBound 4))
    (fun p => Range.init.scaleOutput ((∑ m, contribution (Lattice.gradDot ft) 0 (4 / 5) p (step ![0, 0, 0, 0] ![317 / 400, 19 / 50, 39 / 100, 2 / 5] m)) / 16) (-superBound 4) (superBound 4))
    (scaleOutput_comp _ (cont _) _ _) (scaleOutput_comp _ (cont _) _ _) (1 / 1000) (by norm_num) ?_ ?_ (scaleOutput_ne hb ?_)
  · intro t h1 h2
    obtain ⟨v, hv, e1, e2, hbest⟩ := best t (by linarith) h2
    have hv' := nearest_above t h1 h2 v hv (hbest _ (by intro i; fin_cases i <;> simp))
    simp only [superSimplex, scale_one, List.length_ofFn]
    rw [show (0 : I32) + 0 = 0 from rfl, key t (by linarith) h2, e1, e2, hv']
    have e3 : (fun i => (![317 / 400 + t, 19 / 50, 39 / 100, 2 / 5] : Fin 4 → ℝ) i - ((![1, 0, 0, 0] : Fin 4 → ℤ) i : ℝ)) = ![-(83 / 400) + t, 19 / 50, 39 / 100, 2 / 5] := by
      funext i; fin_cases i <;> norm_num; ring
    have e4 : ∀ m, step ![1, 0, 0, 0] ![-(83 / 400) + t, 19 / 50, 39 / 100, 2 / 5] m = step ![1, 0, 0, 0] ![-(83 / 400), 19 / 50, 39 / 100, 2 / 5] m := by
      intro m; funext i; simp only [step, side_const _ _ _ _ (.inr rfl) t (by linarith) h2 m]
    rw [e3]; simp only [e4]
  · intro t h1 h2
    obtain ⟨v, hv, e1, e2, hbest⟩ := best t h2 (by linarith)
    have hv' := nearest_below t h2 h1 v hv (hbest _ (by intro i; fin_cases i <;> simp))
    simp only [superSimplex, scale_one, List.length_ofFn]
    rw [show (0 : I32) + 0 = 0 from rfl, key t h2 (by linarith), e1, e2, hv']
    have e3 : (fun i => (![317 / 400 + t, 19 / 50, 39 / 100, 2 / 5] : Fin 4 → ℝ) i - ((![0, 0, 0, 0] : Fin 4 → ℤ) i : ℝ)) = ![317 / 400 + t, 19 / 50, 39 / 100, 2 / 5] := by
      funext i; fin_cases i <;> norm_num
    have e4 : ∀ m, step ![0, 0, 0, 0] ![317 / 400 + t, 19 / 50, 39 / 100, 2 / 5] m = step ![0, 0, 0, 0] ![317 / 400, 19 / 50, 39 / 100, 2 / 5] m := by
      intro m; funext i; simp only [step, side_const _ _ _ _ (.inl rfl) t h2 (by linarith) m]
    rw [e3]; simp only [e4]
  · have hsk : skewed (curve d 0 0) = ![317 / 400, 19 / 50, 39 / 100, 2 / 5] := by rw [curve, skewed_unskew, hu]; simp
    generalize curve d 0 0 = p at *
    have a0 : step ![0, 0, 0, 0] ![317 / 400, 19 / 50, 39 / 100, 2 / 5] ![false, false, false, false] = ![0, 0, 0, 0] := by
      rw [step4_eval _ _ _ _ _ _ _ _ _ false (by rw [side4_eval]; simp only [bit]; norm_num)]; rfl
    have a1 : step ![0, 0, 0, 0] ![317 / 400, 19 / 50, 39 / 100, 2 / 5] ![false, false, false, true] = ![0, 0, 0, 1] := by
      rw [step4_eval _ _ _ _ _ _ _ _ _ false (by rw [side4_eval]; simp only [bit]; norm_num)]; rfl
    have a2 : step ![0, 0, 0, 0] ![317 / 400, 19 / 50, 39 / 100, 2 / 5] ![false, false, true, false] = ![0, 0, -1, 0] := by
      rw [step4_eval _ _ _ _ _ _ _ _ _ true (by rw [side4_eval]; simp only [bit]; norm_num)]; rfl
    have a3 : step ![0, 0, 0, 0] ![317 / 400, 19 / 50, 39 / 100, 2 / 5] ![false, false, true, true] = ![0, 0, 1, 1] := by
      rw [step4_eval _ _ _ _ _ _ _ _ _ false (by rw [side4_eval]; simp only [bit]; norm_num)]; rfl
    have a4 : step ![0, 0, 0, 0] ![317 / 400, 19 / 50, 39 / 100, 2 / 5] ![false, true, false, false] = ![0, -1, 0, 0] := by
      rw [step4_eval _ _ _ _ _ _ _ _ _ true (by rw [side4_eval]; simp only [bit]; norm_num)]; rfl
    have a5 : step ![0, 0, 0, 0] ![317 / 400, 19 / 50, 39 / 100, 2 / 5] ![false, true, false, true] = ![0, -1, 0, -1] := by
      rw [step4_eval _ _ _ _ _ _ _ _ _ true (by rw [side4_eval]; simp only [bit]; norm_num)]; rfl
    have a6 : step ![0, 0, 0, 0] ![317 / 400, 19 / 50, 39 / 100, 2 / 5] ![false, true, true, false] = ![0, -1, -1, 0] := by
      rw [step4_eval _ _ _ _ _ _ _ _ _ true (by rw [side4_eval]; simp only [bit]; norm_num)]; rfl
    have a7 : step ![0, 0, 0, 0] ![317 / 400, 19 / 50, 39 / 100, 2 / 5] ![false, true, true, true] = ![0, -1, -1, -1] := by
      rw [step4_eval _ _ _ _ _ _ _ _ _ true (by rw [side4_eval]; simp only [bit]; norm_num)]; rfl
    have a8 : step ![0, 0, 0, 0] ![317 / 400, 19 / 50, 39 / 100, 2 / 5] ![true, false, false, false] = ![1, 0, 0, 0] := by
      rw [step4_eval _ _ _ _ _ _ _ _ _ false (by rw [side4_eval]; simp only [bit]; norm_num)]; rfl
    have a9 : step ![0, 0, 0, 0] ![317 / 400, 19 / 50, 39 / 100, 2 / 5] ![true, false, false, true] = ![1, 0, 0, 1] := by
      rw [step4_eval _ _ _ _ _ _ _ _ _ false (by rw [side4_eval]; simp only [bit]; norm_num)]; rfl
    have a10 : step ![0, 0, 0, 0] ![317 / 400, 19 / 50, 39 / 100, 2 / 5] ![true, false, true, false] = ![1, 0, 1, 0] := by
      rw [step4_eval _ _ _ _ _ _ _ _ _ false (by rw [side4_eval]; simp only [bit]; norm_num)]; rfl
    have a11 : step ![0, 0, 0, 0] ![317 / 400, 19 / 50, 39 / 100, 2 / 5] ![true, false, true, true] = ![1, 0, 1, 1] := by
      rw [step4_eval _ _ _ _ _ _ _ _ _ false (by rw [side4_eval]; simp only [bit]; norm_num)]; rfl
    have a12 : step ![0, 0, 0, 0] ![317 / 400, 19 / 50, 39 / 100, 2 / 5] ![true, true, false, false] = ![1, 1, 0, 0] := by
      rw [step4_eval _ _ _ _ _ _ _ _ _ false (by rw [side4_eval]; simp only [bit]; norm_num)]; rfl
    have a13 : step ![0, 0, 0, 0] ![317 / 400, 19 / 50, 39 / 100, 2 / 5] ![true, true, false, true] = ![1, 1, 0, 1] := by
      rw [step4_eval _ _ _ _ _ _ _ _ _ false (by rw [side4_eval]; simp only [bit]; norm_num)]; rfl
    have a14 : step ![0, 0, 0, 0] ![317 / 400, 19 / 50, 39 / 100, 2 / 5] ![true, true, true, false] = ![1, 1, 1, 0] := by
      rw [step4_eval _ _ _ _ _ _ _ _ _ false (by rw [side4_eval]; simp only [bit]; norm_num)]; rfl
    have a15 : step ![0, 0, 0, 0] ![317 / 400, 19 / 50, 39 / 100, 2 / 5] ![true, true, true, true] = ![1, 1, 1, 1] := by
      rw [step4_eval _ _ _ _ _ _ _ _ _ false (by rw [side4_eval]; simp only [bit]; norm_num)]; rfl
    have b0 : step ![1, 0, 0, 0] ![-(83 / 400), 19 / 50, 39 / 100, 2 / 5] ![false, false, false, false] = ![1, 0, 0, 0] := by
      rw [step4_eval _ _ _ _ _ _ _ _ _ false (by rw [side4_eval]; simp only [bit]; norm_num)]; rfl
    have b1 : step ![1, 0, 0, 0] ![-(83 / 400), 19 / 50, 39 / 100, 2 / 5] ![false, false, false, true] = ![1, 0, 0, 1] := by
      rw [step4_eval _ _ _ _ _ _ _ _ _ false (by rw [side4_eval]; simp only [bit]; norm_num)]; rfl
    have b2 : step ![1, 0, 0, 0] ![-(83 / 400), 19 / 50, 39 / 100, 2 / 5] ![false, false, true, false] = ![1, 0, 1, 0] := by
      rw [step4_eval _ _ _ _ _ _ _ _ _ false (by rw [side4_eval]; simp only [bit]; norm_num)]; rfl
    have b3 : step ![1, 0, 0, 0] ![-(83 / 400), 19 / 50, 39 / 100, 2 / 5] ![false, false, true, true] = ![1, 0, 1, 1] := by
      rw [step4_eval _ _ _ _ _ _ _ _ _ false (by rw [side4_eval]; simp only [bit]; norm_num)]; rfl
    have b4 : step ![1, 0, 0, 0] ![-(83 / 400), 19 / 50, 39 / 100, 2 / 5] ![false, true, false, false] = ![1, 1, 0, 0] := by
      rw [step4_eval _ _ _ _ _ _ _ _ _ false (by rw [side4_eval]; simp only [bit]; norm_num)]; rfl
    have b5 : step ![1, 0, 0, 0] ![-(83 / 400), 19 / 50, 39 / 100, 2 / 5] ![false, true, false, true] = ![1, 1, 0, 1] := by
      rw [step4_eval _ _ _ _ _ _ _ _ _ false (by rw [side4_eval]; simp only [bit]; norm_num)]; rfl
    have b6 : step ![1, 0, 0, 0] ![-(83 / 400), 19 / 50, 39 / 100, 2 / 5] ![false, true, true, false] = ![1, 1, 1, 0] := by
      rw [step4_eval _ _ _ _ _ _ _ _ _ false (by rw [side4_eval]; simp only [bit]; norm_num)]; rfl
    have b7 : step ![1, 0, 0, 0] ![-(83 / 400), 19 / 50, 39 / 100, 2 / 5] ![false, true, true, true] = ![1, 1, 1, 1] := by
      rw [step4_eval _ _ _ _ _ _ _ _ _ false (by rw [side4_eval]; simp only [bit]; norm_num)]; rfl
    have b8 : step ![1, 0, 0, 0] ![-(83 / 400), 19 / 50, 39 / 100, 2 / 5] ![true, false, false, false] = ![0, 0, 0, 0] := by
      rw [step4_eval _ _ _ _ _ _ _ _ _ true (by rw [side4_eval]; simp only [bit]; norm_num)]; rfl
    have b9 : step ![1, 0, 0, 0] ![-(83 / 400), 19 / 50, 39 / 100, 2 / 5] ![true, false, false, true] = ![0, 0, 0, -1] := by
      rw [step4_eval _ _ _ _ _ _ _ _ _ true (by rw [side4_eval]; simp only [bit]; norm_num)]; rfl
    have b10 : step ![1, 0, 0, 0] ![-(83 / 400), 19 / 50, 39 / 100, 2 / 5] ![true, false, true, false] = ![0, 0, -1, 0] := by
      rw [step4_eval _ _ _ _ _ _ _ _ _ true (by rw [side4_eval]; simp only [bit]; norm_num)]; rfl
    have b11 : step ![1, 0, 0, 0] ![-(83 / 400), 19 / 50, 39 / 100, 2 / 5] ![true, false, true, true] = ![2, 0, 1, 1] := by
      rw [step4_eval _ _ _ _ _ _ _ _ _ false (by rw [side4_eval]; simp only [bit]; norm_num)]; rfl
    have b12 : step ![1, 0, 0, 0] ![-(83 / 400), 19 / 50, 39 / 100, 2 / 5] ![true, true, false, false] = ![0, -1, 0, 0] := by
      rw [step4_eval _ _ _ _ _ _ _ _ _ true (by rw [side4_eval]; simp only [bit]; norm_num)]; rfl
    have b13 : step ![1, 0, 0, 0] ![-(83 / 400), 19 / 50, 39 / 100, 2 / 5] ![true, true, false, true] = ![0, -1, 0, -1] := by
      rw [step4_eval _ _ _ _ _ _ _ _ _ true (by rw [side4_eval]; simp only [bit]; norm_num)]; rfl
    have b14 : step ![1, 0, 0, 0] ![-(83 / 400), 19 / 50, 39 / 100, 2 / 5] ![true, true, true, false] = ![0, -1, -1, 0] := by
      rw [step4_eval _ _ _ _ _ _ _ _ _ true (by rw [side4_eval]; simp only [bit]; norm_num)]; rfl
    have b15 : step ![1, 0, 0, 0] ![-(83 / 400), 19 / 50, 39 / 100, 2 / 5] ![true, true, true, true] = ![2, 1, 1, 1] := by
      rw [step4_eval _ _ _ _ _ _ _ _ _ false (by rw [side4_eval]; simp only [bit]; norm_num)]; rfl
    have z0 : contribution (Lattice.gradDot ft) 0 (4 / 5) p ![0, -1, -1, -1] = 0 := far4 _ p hsk _ _ _ _ (by norm_num)
    have z1 : contribution (Lattice.gradDot ft) 0 (4 / 5) p ![0, -1, -1, 0] = 0 := far4 _ p hsk _ _ _ _ (by norm_num)
    have z2 : contribution (Lattice.gradDot ft) 0 (4 / 5) p ![0, -1, 0, -1] = 0 := far4 _ p hsk _ _ _ _ (by norm_num)
    have z3 : contribution (Lattice.gradDot ft) 0 (4 / 5) p ![0, -1, 0, 0] = 0 := far4 _ p hsk _ _ _ _ (by norm_num)
    have z4 : contribution (Lattice.gradDot ft) 0 (4 / 5) p ![0, 0, -1, 0] = 0 := far4 _ p hsk _ _ _ _ (by norm_num)
    have z5 : contribution (Lattice.gradDot ft) 0 (4 / 5) p ![0, 0, 0, -1] = 0 := far4 _ p hsk _ _ _ _ (by norm_num)
    have z6 : contribution (Lattice.gradDot ft) 0 (4 / 5) p ![0, 0, 0, 1] = 0 := far4 _ p hsk _ _ _ _ (by norm_num)
    have z7 : contribution (Lattice.gradDot ft) 0 (4 / 5) p ![0, 0, 1, 1] = 0 := far4 _ p hsk _ _ _ _ (by norm_num)
    have z8 : contribution (Lattice.gradDot ft) 0 (4 / 5) p ![2, 0, 1, 1] = 0 := far4 _ p hsk _ _ _ _ (by norm_num)
    have g : low 5 (hashPrimes 0 [BitVec.ofInt 32 2 * primeX, BitVec.ofInt 32 1 * primeY, BitVec.ofInt 32 1 * primeZ, BitVec.ofInt 32 1 * primeW]) = 20 := by decide
    have c : perlin4 (20 : Fin (2 ^ 5)) = (1, 1, 0, -1) := by
      have t0 : Nat.testBit 20 0 = false := by decide
      have t1 : Nat.testBit 20 1 = false := by decide
      have t2 : Nat.testBit 20 2 = true := by decide
      simp [perlin4, sgn, t0, t1, t2]
    have e : contribution (Lattice.gradDot ft) 0 (4 / 5) p ![2, 1, 1, 1] ≠ 0 := by
      rw [contribution_eq, term4, hsk, Lattice.gradDot, dotPerlin4_eq]
      simp only [Matrix.cons_val_zero, Matrix.cons_val_one, Matrix.cons_val, g, c, dot4]
      have hk : -1 / 4 < kUnskew 4 ∧ kUnskew 4 < 0 := by
        have e : kUnskew 4 = -1 / (√5 + 5) := by norm_num [kUnskew]
        have := sqrt5_pos
        rw [e]
        constructor
        · rw [div_lt_div_iff₀ (by norm_num) (by positivity)]; linarith
        · exact div_neg_of_neg_of_pos (by norm_num) (by positivity)
      refine mul_ne_zero ?_ ?_
      · norm_num [pow4]
      · norm_num; intro h; nlinarith
    intro hcon
    simp only [sum_bools4, a0, a1, a2, a3, a4, a5, a6, a7, a8, a9, a10, a11, a12, a13, a14, a15, b0, b1, b2, b3, b4, b5, b6, b7, b8, b9, b10, b11, b12, b13, b14, b15, z0, z1, z2, z3, z4, z5, z6, z7, z8] at hcon
    apply e; linarith

/-- Positions up to 2^28 feature sizes satisfy the hypothesis of the theorems above, for instance this one. -/
example : Fits (1 / 100) (![123456, -987654.321, 0] : Fin 3 → ℝ) := by
  intro i; fin_cases i <;> norm_num [abs_of_pos, abs_of_neg]

end
end FastNoise.Simplex
