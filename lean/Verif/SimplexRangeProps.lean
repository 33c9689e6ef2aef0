import Verif.SimplexRangeLemmas
import Verif.SimplexProps
import Verif.BasicProps
/-!
# C60: Simplex and SuperSimplex noise stay in their output range

C38 and C44 say which contributions of grid points the code sums up; here the sum is bounded: for every position and every combination of gradients.  The bound is an optimisation problem in
up to 4 + 16 variables; it is solved by a branch and bound search whose result, a tree of boxes, is checked by a program (`Verif.RangeCheck`) that is proved right (`check_sound`) and run by Lean's kernel.
-/
namespace FastNoise.Simplex
open FastNoise.Hash FastNoise.Num FastNoise.Basic FastNoise.Gradient

noncomputable section

variable {n : Nat}

/-- Scaling keeps a bounded value in the range. -/
theorem scale_between (ops : List (SetOp ℝ)) {b v : ℝ} (hb : 0 < b) (hv : |v| ≤ b) :
    min (lastMin ops) (lastMax ops) ≤ (rangeAfter ops).scaleOutput v (-b) b ∧ (rangeAfter ops).scaleOutput v (-b) b ≤ max (lastMin ops) (lastMax ops) :=
  (C24_output_range ops (-b) b (by linarith)).2.2.2 v (abs_le.mp hv).1 (abs_le.mp hv).2

/-- The sum over the whole grid is a sum over a finite set. -/
theorem gridNoise_finite (ramp : I32 → List ℝ → ℝ) (seed : I32) (r2 : ℝ) (p : Fin n → ℝ) : ∃ s : Finset (Fin n → ℤ), gridNoise ramp seed r2 p = ∑ v ∈ s, contribution ramp seed r2 p v := by
  by_cases h : (Function.support fun v : Fin n → ℤ => contribution ramp seed r2 p v).Finite
  · exact ⟨h.toFinset, finsum_eq_sum_of_support_subset _ (by simp)⟩
  · exact ⟨∅, by rw [gridNoise, finsum_of_infinite_support h, Finset.sum_empty]⟩

/-- **C60**: 2D, 3D and 4D Simplex noise lies between the limits last passed to `SetOutputMin` and `SetOutputMax`. -/
theorem C60_simplex_range (hn : n = 2 ∨ n = 3 ∨ n = 4) (ft : Feat) (ops : List (SetOp ℝ)) (scale : ℝ) (seedOffset seed : I32) (x : Fin n → ℝ) (hx : Fits scale x) :
    min (lastMin ops) (lastMax ops) ≤ simplex ft (rangeAfter ops) scale seedOffset seed (List.ofFn x) ∧
    simplex ft (rangeAfter ops) scale seedOffset seed (List.ofFn x) ≤ max (lastMin ops) (lastMax ops) := by
  have hb : 0 < simplexPeak n := by rcases hn with rfl | rfl | rfl <;> norm_num [simplexPeak]
  obtain ⟨rank, hs, he⟩ := simplexRaw_sum hn (Lattice.gradDot ft) (seed + seedOffset) (fun i => x i / scale) fun i => (safe_of_bound hn _ hx i).1
  have e : simplex ft (rangeAfter ops) scale seedOffset seed (List.ofFn x) =
      (rangeAfter ops).scaleOutput (∑ k : Fin (n + 1), contribution (Lattice.gradDot ft) (seed + seedOffset) (simplexRadiusSq n) (fun i => x i / scale) (corner (base fun i => x i / scale) rank k))
        (-simplexPeak n) (simplexPeak n) := by
    rw [← he, ← simplexBound_peak hn]
    simp only [simplex, scale_pos, List.length_ofFn]
  rw [e]
  exact scale_between ops hb (simplex_abs_le hn ft _ _ rank hs)

/-- **C60**: 2D and 3D SuperSimplex noise lies between the limits last passed to `SetOutputMin` and `SetOutputMax`. -/
theorem C60_super_range (ft : Feat) (ops : List (SetOp ℝ)) (scale : ℝ) (seedOffset seed : I32) :
    (∀ x : Fin 2 → ℝ, Fits scale x → min (lastMin ops) (lastMax ops) ≤ superSimplex ft (rangeAfter ops) scale seedOffset seed (List.ofFn x) ∧
      superSimplex ft (rangeAfter ops) scale seedOffset seed (List.ofFn x) ≤ max (lastMin ops) (lastMax ops)) ∧
    (∀ x : Fin 3 → ℝ, Fits scale x → min (lastMin ops) (lastMax ops) ≤ superSimplex ft (rangeAfter ops) scale seedOffset seed (List.ofFn x) ∧
      superSimplex ft (rangeAfter ops) scale seedOffset seed (List.ofFn x) ≤ max (lastMin ops) (lastMax ops)) := by
  constructor
  · intro x hx
    rw [C44_super2 ft _ scale seedOffset seed x hx]
    refine scale_between ops (by norm_num [superPeak]) ?_
    obtain ⟨s, hs⟩ := gridNoise_finite (Lattice.gradDot ft) (seed + seedOffset) (superRadiusSq 2) fun i => x i / scale
    rw [hs]
    simpa [superMax] using super_abs_le (.inl rfl) ft (seed + seedOffset) (fun i => x i / scale) s
  · intro x hx
    rw [C44_super3 ft _ scale seedOffset seed x hx]
    refine scale_between ops (by norm_num [superPeak]) ?_
    obtain ⟨s, hs⟩ := gridNoise_finite (Lattice.gradDot ft) (seed + seedOffset) (superRadiusSq 3) fun i => x i / scale
    rw [hs]
    have := super_abs_le (.inr (.inl rfl)) ft (seed + seedOffset) (fun i => x i / scale) s
    simp only [superMax] at this
    norm_num at this
    rw [abs_div, abs_of_pos (by norm_num : (0 : ℝ) < 16)]
    linarith

/-- **C60**, 4D SuperSimplex noise, partial: it leaves the range by at most a hundredth of a percent of half its width.  Missing: it does leave it, see `C60_super4_leaves_range`. -/
theorem C60_super4_range_partial (ft : Feat) (ops : List (SetOp ℝ)) (h : lastMin ops ≤ lastMax ops) (scale : ℝ) (seedOffset seed : I32) (x : Fin 4 → ℝ) (hx : Fits scale x) :
    |superSimplex ft (rangeAfter ops) scale seedOffset seed (List.ofFn x) - (lastMin ops + lastMax ops) / 2| ≤ 1.0001 * ((lastMax ops - lastMin ops) / 2) := by
  obtain ⟨s, -, e⟩ := C44_super4_partial ft (rangeAfter ops) scale seedOffset seed x hx
  have hb := super_abs_le (.inr (.inr rfl)) ft (seed + seedOffset) (fun i => x i / scale) s
  rw [e]
  generalize ∑ v ∈ s, contribution (Lattice.gradDot ft) (seed + seedOffset) (superRadiusSq 4) (fun i => x i / scale) v = v at hb ⊢
  have hp : (0 : ℝ) < superPeak 4 := by norm_num [superPeak]
  have hv : |v / 16| ≤ 1.0001 * superPeak 4 := by
    rw [abs_div, abs_of_pos (by norm_num : (0 : ℝ) < 16)]
    simp only [superMax] at hb
    norm_num at hb
    norm_num
    linarith
  generalize v / 16 = v at hv ⊢
  generalize superPeak 4 = b at *
  rw [(C24_output_range ops _ _ (by linarith)).2.2.1]
  have e : lastMin ops + (v - -b) / (b - -b) * (lastMax ops - lastMin ops) - (lastMin ops + lastMax ops) / 2 = v * ((lastMax ops - lastMin ops) / (2 * b)) := by
    field_simp; ring
  have hw : 0 ≤ (lastMax ops - lastMin ops) / (2 * b) := by apply div_nonneg <;> linarith
  rw [e, abs_mul, abs_of_nonneg hw]
  calc |v| * ((lastMax ops - lastMin ops) / (2 * b)) ≤ 1.0001 * b * ((lastMax ops - lastMin ops) / (2 * b)) := mul_le_mul_of_nonneg_right hv hw
    _ = 1.0001 * ((lastMax ops - lastMin ops) / 2) := by field_simp

/-- The skewed position of the counterexample. -/
def peak4 : Fin 4 → ℝ := ![4 / 9, 1 / 2, 1 / 2, 5 / 9]

theorem peak4_far (v : Fin 4 → ℤ) (h0 : v ≠ ![0, 0, 0, 0]) (h1 : v ≠ ![0, 0, 0, 1]) (h2 : v ≠ ![0, 1, 1, 1]) (h3 : v ≠ ![1, 1, 1, 1]) : 4 / 5 ≤ Q fun i => peak4 i - v i := by
  by_cases hw : ∀ i, -1 ≤ v i ∧ v i ≤ 2
  · have key : ∀ f : Fin 4 → Fin 4, (fun i => (f i : ℤ) - 1) ≠ ![0, 0, 0, 0] → (fun i => (f i : ℤ) - 1) ≠ ![0, 0, 0, 1] → (fun i => (f i : ℤ) - 1) ≠ ![0, 1, 1, 1] →
        (fun i => (f i : ℤ) - 1) ≠ ![1, 1, 1, 1] →
        4 * 18 ^ 2 ≤ 5 * ∑ i, ((![8, 9, 9, 10] : Fin 4 → ℤ) i - 18 * ((f i : ℤ) - 1)) ^ 2 - (∑ i, ((![8, 9, 9, 10] : Fin 4 → ℤ) i - 18 * ((f i : ℤ) - 1))) ^ 2 := by decide +kernel
    have hf : (fun i => ((⟨(v i + 1).toNat, by have := hw i; omega⟩ : Fin 4) : ℤ) - 1) = v := by funext i; have := hw i; simp only; omega
    have := key (fun i => ⟨(v i + 1).toNat, by have := hw i; omega⟩) (by rw [hf]; exact h0) (by rw [hf]; exact h1) (by rw [hf]; exact h2) (by rw [hf]; exact h3)
    have hf' : ∀ i, (((⟨(v i + 1).toNat, by have := hw i; omega⟩ : Fin 4) : ℕ) : ℤ) - 1 = v i := fun i => congrFun hf i
    simp only [hf', Fin.sum_univ_four] at this
    have hr : (4 * 18 ^ 2 : ℝ) ≤ 5 * ((8 - 18 * (v 0 : ℝ)) ^ 2 + (9 - 18 * (v 1 : ℝ)) ^ 2 + (9 - 18 * (v 2 : ℝ)) ^ 2 + (10 - 18 * (v 3 : ℝ)) ^ 2) -
        (8 - 18 * (v 0 : ℝ) + (9 - 18 * v 1) + (9 - 18 * v 2) + (10 - 18 * v 3)) ^ 2 := by exact_mod_cast this
    simp only [Q, Fin.sum_univ_four, peak4]
    simp
    nlinarith
  · push Not at hw
    obtain ⟨i, hi⟩ := hw
    refine le_trans ?_ (Q_ge_one _ i)
    have h4 : 0 ≤ peak4 i ∧ peak4 i ≤ 1 := by fin_cases i <;> norm_num [peak4]
    by_cases h : -1 ≤ v i
    · have : (3 : ℝ) ≤ v i := by exact_mod_cast (hi h : 2 < v i)
      nlinarith
    · have : (v i : ℝ) ≤ -2 := by exact_mod_cast (by omega : v i ≤ -2)
      nlinarith

/-- Where C60 fails: 4D SuperSimplex noise with default settings (scale 100, range [-1, 1]) and seed 372296 is above 1 near (16.8, 22.36, 22.36, 27.92). -/
theorem C60_super4_leaves_range (ft : Feat) (x : Fin 4 → ℝ) (hx : ∀ i, x i = 100 * ((![4 / 9, 1 / 2, 1 / 2, 5 / 9] : Fin 4 → ℝ) i - (1 - 1 / √5) / 2)) :
    Fits 100 x ∧ 1 < superSimplex ft Range.init 100 0 372296 (List.ofFn x) := by
  have h5 := sqrt5_bounds
  have hs : skewed (fun i => x i / 100) = peak4 := by
    have : (fun i => x i / 100) = unskew peak4 := by
      funext i
      have e : squash 4 = (1 / √5 - 1) / 4 := by simp only [squash]; norm_num
      rw [hx i]
      simp only [unskew, peak4, Fin.sum_univ_four, e]
      simp
      ring
    rw [this, skewed_unskew]
  have hfit : Fits 100 x := by
    intro i
    rw [hx i]
    have h1 : 0 ≤ 1 / √5 ∧ 1 / √5 ≤ 1 := ⟨by positivity, by rw [div_le_one (by positivity)]; linarith⟩
    generalize 1 / √5 = w at h1
    obtain ⟨h1, h2⟩ := h1
    rw [abs_le]
    fin_cases i <;> simp only [Fin.zero_eta, Fin.mk_one, Fin.reduceFinMk, Matrix.cons_val] <;> constructor <;> norm_num <;> linarith
  refine ⟨hfit, ?_⟩
  obtain ⟨s, h1, h2⟩ := C44_super4_partial ft Range.init 100 0 372296 x hfit
  rw [h2]
  have hsum : ∑ v ∈ s, contribution (Lattice.gradDot ft) (372296 + 0) (superRadiusSq 4) (fun i => x i / 100) v =
      ∑ v ∈ ({![0, 0, 0, 0], ![0, 0, 0, 1], ![0, 1, 1, 1], ![1, 1, 1, 1]} : Finset (Fin 4 → ℤ)), contribution (Lattice.gradDot ft) (372296 + 0) (superRadiusSq 4) (fun i => x i / 100) v := by
    refine (Finset.sum_subset ?_ ?_).symm
    · intro v hv
      refine h1 v ?_
      rw [distSq_gridPoint, hs]
      simp only [Finset.mem_insert, Finset.mem_singleton] at hv
      rcases hv with rfl | rfl | rfl | rfl <;> simp only [Q, peak4, Fin.sum_univ_four, Matrix.cons_val] <;> norm_num
    · intro v _ hv
      simp only [Finset.mem_insert, Finset.mem_singleton, not_or] at hv
      rw [contribution_eq, hs]
      refine term_far _ _ _ _ _ ?_
      rw [show superRadiusSq 4 = 4 / 5 by norm_num [superRadiusSq]]
      exact peak4_far v hv.1 hv.2.1 hv.2.2.1 hv.2.2.2
  have g0 : low 5 (hashPrimes (372296 + 0) [BitVec.ofInt 32 0 * primeX, BitVec.ofInt 32 0 * primeY, BitVec.ofInt 32 0 * primeZ, BitVec.ofInt 32 0 * primeW]) = 0 := by decide
  have g1 : low 5 (hashPrimes (372296 + 0) [BitVec.ofInt 32 0 * primeX, BitVec.ofInt 32 0 * primeY, BitVec.ofInt 32 0 * primeZ, BitVec.ofInt 32 1 * primeW]) = 4 := by decide
  have g2 : low 5 (hashPrimes (372296 + 0) [BitVec.ofInt 32 0 * primeX, BitVec.ofInt 32 1 * primeY, BitVec.ofInt 32 1 * primeZ, BitVec.ofInt 32 1 * primeW]) = 30 := by decide
  have g3 : low 5 (hashPrimes (372296 + 0) [BitVec.ofInt 32 1 * primeX, BitVec.ofInt 32 1 * primeY, BitVec.ofInt 32 1 * primeZ, BitVec.ofInt 32 1 * primeW]) = 31 := by decide
  have c0 : perlin4 (0 : Fin (2 ^ 5)) = (0, 1, 1, 1) := by simp [perlin4, sgn, Nat.testBit]
  have c1 : perlin4 (4 : Fin (2 ^ 5)) = (0, 1, 1, -1) := by simp [perlin4, sgn, Nat.testBit]
  have c2 : perlin4 (30 : Fin (2 ^ 5)) = (1, -1, -1, 0) := by simp [perlin4, sgn, Nat.testBit]
  have c3 : perlin4 (31 : Fin (2 ^ 5)) = (-1, -1, -1, 0) := by simp [perlin4, sgn, Nat.testBit]
  have hk : -0.1381966011251 < kUnskew 4 ∧ kUnskew 4 < -0.138196601125 := by
    have e : kUnskew 4 = -1 / (√5 + 5) := by norm_num [kUnskew]
    rw [e]
    constructor
    · rw [lt_div_iff₀ (by positivity)]; linarith
    · rw [div_lt_iff₀ (by positivity)]; linarith
  have hval : 1.00002 * (16 * superPeak 4) < ∑ v ∈ s, contribution (Lattice.gradDot ft) (372296 + 0) (superRadiusSq 4) (fun i => x i / 100) v := by
    rw [hsum, Finset.sum_insert (by decide), Finset.sum_insert (by decide), Finset.sum_insert (by decide), Finset.sum_singleton]
    simp only [contribution_eq, term4, hs, Lattice.gradDot, dotPerlin4_eq, Matrix.cons_val_zero, Matrix.cons_val_one, Matrix.cons_val, g0, g1, g2, g3, c0, c1, c2, c3, dot4, peak4,
      show superRadiusSq 4 = 4 / 5 by norm_num [superRadiusSq], superPeak, pow4]
    norm_num
    linarith [hk.1, hk.2]
  have hp : (0 : ℝ) < superPeak 4 := by norm_num [superPeak]
  generalize ∑ v ∈ s, contribution (Lattice.gradDot ft) (372296 + 0) (superRadiusSq 4) (fun i => x i / 100) v = w at hval ⊢
  generalize superPeak 4 = b at *
  have e := (C24_output_range [] (-b) b (by linarith)).2.2.1 (w / 16)
  rw [show rangeAfter ([] : List (SetOp ℝ)) = Range.init from rfl] at e
  rw [e]
  simp only [lastMin, lastMax]
  rw [show b - -b = 2 * b by ring, show (w / 16 - -b) / (2 * b) = w / (32 * b) + 1 / 2 by field_simp; ring]
  have : 1 / 2 < w / (32 * b) := by rw [lt_div_iff₀ (by linarith)]; linarith
  norm_num
  linarith

/-- The hypothesis of the theorems above is met by positions of everyday size. -/
example : Fits 100 (![1234.5, -987.25, 0, 1e6] : Fin 4 → ℝ) := by
  intro i; fin_cases i <;> norm_num [abs_of_pos, abs_of_neg]

end
end FastNoise.Simplex
