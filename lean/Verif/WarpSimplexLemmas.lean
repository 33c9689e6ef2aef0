import Verif.WarpSimplex
import Verif.WarpSimplexSpec
import Verif.WarpGradOrth
import Verif.SimplexRaw
import Verif.SimplexMore
/-! # Lemmas on the simplex domain warps -/
namespace FastNoise.WarpGrad
open FastNoise.Hash FastNoise.Gradient Matrix

noncomputable section

/-! ## Contributions as matrices -/

/-- The row that `pick` selects. -/
def pickRow (i : I32) (g : Col × Col × Col × Col) : Fin 4 → ℝ :=
  ![pick i g.1.1 g.1.2.1 g.1.2.2.1 g.1.2.2.2, pick i g.2.1.1 g.2.1.2.1 g.2.1.2.2.1 g.2.1.2.2.2, pick i g.2.2.1.1 g.2.2.1.2.1 g.2.2.1.2.2.1 g.2.2.1.2.2.2,
    pick i g.2.2.2.1 g.2.2.2.2.1 g.2.2.2.2.2.1 g.2.2.2.2.2.2]

/-- The row of the last output. -/
def lastRow (i : I32) (g : Col × Col × Col × Col) : Fin 4 → ℝ :=
  ![pick i g.1.2.2.1 g.1.2.1 g.1.1 g.1.2.2.2, pick i g.2.1.2.2.1 g.2.1.2.1 g.2.1.1 g.2.1.2.2.2, pick i g.2.2.1.2.2.1 g.2.2.1.2.1 g.2.2.1.1 g.2.2.1.2.2.2,
    pick i g.2.2.2.2.2.1 g.2.2.2.2.1 g.2.2.2.1 g.2.2.2.2.2.2]

/-- The columns of the 4D matrix on the given feature level. -/
def cols4 (ft : Feat) (h : I32) : Col × Col × Col × Col :=
  if ft.avx512 then cols512 ((h >>> 2) * 5) else if ft.avx2 then cols256 ((h >>> 2) * 5) else colsGen ((h >>> 2) * 5)

/-- The matrix of a grid point in 4D; it depends on the feature level. -/
def orthMatrix4 (ft : Feat) (h : I32) : Matrix (Fin 4) (Fin 4) ℝ :=
  let i := valueIndices h
  let g := cols4 ft h
  sg (h <<< 31).msb • of ![pickRow i.1 g, pickRow i.2.1 g, pickRow i.2.2 g, lastRow (i.1 + i.2.1 + i.2.2) g]

theorem dot4v (a b c d x y z w : ℝ) : ![a, b, c, d] ⬝ᵥ ![x, y, z, w] = a * x + b * y + c * z + d * w := by
  simp [dotProduct, Fin.sum_univ_four]

theorem orth4_eq (ft : Feat) (h : I32) (x y z w m : ℝ) (v : ℝ × ℝ × ℝ × ℝ) :
    orth4 ft h x y z w m v = (v.1 + m * (orthMatrix4 ft h *ᵥ ![x, y, z, w]) 0, v.2.1 + m * (orthMatrix4 ft h *ᵥ ![x, y, z, w]) 1,
      v.2.2.1 + m * (orthMatrix4 ft h *ᵥ ![x, y, z, w]) 2, v.2.2.2 + m * (orthMatrix4 ft h *ᵥ ![x, y, z, w]) 3) := by
  have hmv : ∀ (s : ℝ) (R : Fin 4 → Fin 4 → ℝ) (f : Fin 4 → ℝ) (k : Fin 4), ((s • of R) *ᵥ f) k = s * (R k ⬝ᵥ f) := by
    intro s R f k; rw [smul_mulVec]; rfl
  unfold orth4
  have ec : (if ft.avx512 then cols512 ((h >>> 2) * 5) else if ft.avx2 then cols256 ((h >>> 2) * 5) else colsGen ((h >>> 2) * 5)) = cols4 ft h := rfl
  simp only [ec, orthMatrix4, hmv, xorSign_eq, cons_val_zero, cons_val_one, cons_val]
  generalize cols4 ft h = g
  generalize valueIndices h = i
  generalize sg (h <<< 31).msb = s
  simp only [pickRow, lastRow, dot4v, fma]
  refine Prod.ext ?_ (Prod.ext ?_ (Prod.ext ?_ ?_)) <;> simp only [pick, selectHighBit] <;> split_ifs <;> ring

/-- The matrices in 2D. -/
def matrices2 : Scheme → I32 → Matrix (Fin 2) (Fin 2) ℝ
  | .orthogonalGradientMatrix => orthMatrix2
  | .gradientOuterProduct => outerMatrix2
/-- The matrices in 3D. -/
def matrices3 : Scheme → I32 → Matrix (Fin 3) (Fin 3) ℝ
  | .orthogonalGradientMatrix => orthMatrix3
  | .gradientOuterProduct => outerMatrix3
/-- The matrices in 4D. -/
def matrices4 (ft : Feat) : Scheme → I32 → Matrix (Fin 4) (Fin 4) ℝ
  | .orthogonalGradientMatrix => orthMatrix4 ft
  | .gradientOuterProduct => outerMatrix4

theorem apply2 (s : Scheme) (ft : Feat) (h : I32) (hm : h.msb = false) (f v : Fin 2 → ℝ) (m : ℝ) :
    applyContribution s ft h [f 0, f 1] m [v 0, v 1] = List.ofFn fun k => v k + m * (matrices2 s h *ᵥ f) k := by
  have e : f = ![f 0, f 1] := by funext i; fin_cases i <;> rfl
  cases s
  · simp only [applyContribution, orth2_eq ft h hm, matrices2, orthMatrix2]
    rw [e]; simp [List.ofFn_succ, mulVec, dotProduct, Fin.sum_univ_two]; ring
  · simp only [applyContribution, outer2_eq ft h hm, matrices2, outerMatrix2, vecMulVec_mulVec]
    rw [e]; simp [List.ofFn_succ, dotProduct, vec2, dot2, Fin.sum_univ_two]; constructor <;> ring

theorem apply3 (s : Scheme) (ft : Feat) (h : I32) (hm : h.msb = false) (f v : Fin 3 → ℝ) (m : ℝ) :
    applyContribution s ft h [f 0, f 1, f 2] m [v 0, v 1, v 2] = List.ofFn fun k => v k + m * (matrices3 s h *ᵥ f) k := by
  have e : f = ![f 0, f 1, f 2] := by funext i; fin_cases i <;> rfl
  cases s
  · simp only [applyContribution, orth3_eq ft h hm, matrices3, ← e]
    simp [List.ofFn_succ]
  · simp only [applyContribution, outer3_eq ft h hm, matrices3, outerMatrix3, vecMulVec_mulVec]
    rw [e]; simp [List.ofFn_succ, dotProduct, vec3, dot3, Fin.sum_univ_three]; refine ⟨?_, ?_, ?_⟩ <;> ring

theorem apply4 (s : Scheme) (ft : Feat) (h : I32) (hm : h.msb = false) (f v : Fin 4 → ℝ) (m : ℝ) :
    applyContribution s ft h [f 0, f 1, f 2, f 3] m [v 0, v 1, v 2, v 3] = List.ofFn fun k => v k + m * (matrices4 ft s h *ᵥ f) k := by
  have e : f = ![f 0, f 1, f 2, f 3] := by funext i; fin_cases i <;> rfl
  cases s
  · simp only [applyContribution, orth4_eq ft h, matrices4, ← e]
    simp [List.ofFn_succ]
  · simp only [applyContribution, outer4_eq ft h hm, matrices4, outerMatrix4, vecMulVec_mulVec]
    rw [e]; simp [List.ofFn_succ, dotProduct, vec4, dot4, Fin.sum_univ_four]; refine ⟨?_, ?_, ?_, ?_⟩ <;> ring

end
end FastNoise.WarpGrad

namespace FastNoise.WarpSimplex
open FastNoise.Hash FastNoise.Num FastNoise.Basic FastNoise.Gradient FastNoise.Simplex FastNoise.WarpGrad FastNoise.Fractal Matrix

noncomputable section

variable {n : Nat}

/-! ## Only the values of the ramp at 31 bit hashes matter -/

theorem simplex2_congr (a b : Ramp) (h : ∀ k : I32, k.msb = false → ∀ x y, a k [x, y] = b k [x, y]) (seed : I32) (x y : ℝ) : simplex2 a seed x y = simplex2 b seed x y := by
  have e : ∀ s p x y, a (hashPrimes s p) [x, y] = b (hashPrimes s p) [x, y] := fun s p x y => h _ (C25_mix_nonneg s p) x y
  simp only [Simplex.simplex2, e]

theorem simplex3_congr (a b : Ramp) (h : ∀ k : I32, k.msb = false → ∀ x y z, a k [x, y, z] = b k [x, y, z]) (seed : I32) (x y z : ℝ) : simplex3 a seed x y z = simplex3 b seed x y z := by
  have e : ∀ s p x y z, a (hashPrimes s p) [x, y, z] = b (hashPrimes s p) [x, y, z] := fun s p x y z => h _ (C25_mix_nonneg s p) x y z
  simp only [simplex3, e]

theorem simplex4_congr (a b : Ramp) (h : ∀ k : I32, k.msb = false → ∀ x y z w, a k [x, y, z, w] = b k [x, y, z, w]) (seed : I32) (x y z w : ℝ) : simplex4 a seed x y z w = simplex4 b seed x y z w := by
  have e : ∀ s p x y z w, a (hashPrimes s p) [x, y, z, w] = b (hashPrimes s p) [x, y, z, w] := fun s p x y z w => h _ (C25_mix_nonneg s p) x y z w
  simp only [Simplex.simplex4, e]

theorem super2_congr (a b : Ramp) (h : ∀ k : I32, k.msb = false → ∀ x y, a k [x, y] = b k [x, y]) (seed : I32) (x y : ℝ) : super2 a seed x y = super2 b seed x y := by
  have e : ∀ s p x y, a (hashPrimes s p) [x, y] = b (hashPrimes s p) [x, y] := fun s p x y => h _ (C25_mix_nonneg s p) x y
  simp only [super2, e]

theorem super3_congr (a b : Ramp) (h : ∀ k : I32, k.msb = false → ∀ x y z, a k [x, y, z] = b k [x, y, z]) (seed : I32) (x y z : ℝ) : super3 a seed x y z = super3 b seed x y z := by
  have e : ∀ s p x y z, a (hashPrimes s p) [x, y, z] = b (hashPrimes s p) [x, y, z] := fun s p x y z => h _ (C25_mix_nonneg s p) x y z
  have v : vertex3 a = vertex3 b := by funext; simp only [vertex3, e]
  simp only [super3, e, v]

theorem super4_congr (a b : Ramp) (h : ∀ k : I32, k.msb = false → ∀ x y z w, a k [x, y, z, w] = b k [x, y, z, w]) (seed : I32) (x y z w : ℝ) : super4 a seed x y z w = super4 b seed x y z w := by
  have e : ∀ s p x y z w, a (hashPrimes s p) [x, y, z, w] = b (hashPrimes s p) [x, y, z, w] := fun s p x y z w => h _ (C25_mix_nonneg s p) x y z w
  have v : vertex4 a = vertex4 b := by funext; simp only [vertex4, e]
  simp only [super4, e, v]

theorem raw_congr (hn : n = 2 ∨ n = 3 ∨ n = 4) (a b : Ramp) (h : ∀ k : I32, k.msb = false → ∀ u : Fin n → ℝ, a k (List.ofFn u) = b k (List.ofFn u)) (seed : I32) (p : Fin n → ℝ) :
    simplexRaw a seed (List.ofFn p) = simplexRaw b seed (List.ofFn p) ∧ superRaw a seed (List.ofFn p) = superRaw b seed (List.ofFn p) := by
  rcases hn with rfl | rfl | rfl
  · rw [ofFn2]
    have h' : ∀ k : I32, k.msb = false → ∀ x y, a k [x, y] = b k [x, y] := fun k hk x y => by simpa [ofFn2] using h k hk ![x, y]
    exact ⟨simplex2_congr a b h' _ _ _, super2_congr a b h' _ _ _⟩
  · rw [ofFn3]
    have h' : ∀ k : I32, k.msb = false → ∀ x y z, a k [x, y, z] = b k [x, y, z] := fun k hk x y z => by simpa [ofFn3] using h k hk ![x, y, z]
    exact ⟨simplex3_congr a b h' _ _ _ _, super3_congr a b h' _ _ _ _⟩
  · rw [ofFn4]
    have h' : ∀ k : I32, k.msb = false → ∀ x y z w, a k [x, y, z, w] = b k [x, y, z, w] := fun k hk x y z w => by simpa [ofFn4] using h k hk ![x, y, z, w]
    exact ⟨simplex4_congr a b h' _ _ _ _ _, super4_congr a b h' _ _ _ _ _⟩

/-! ## The ramp of a matrix -/

/-- Component `k` of matrix times offset. -/
def matRamp (M : I32 → Matrix (Fin n) (Fin n) ℝ) (k : Fin n) : Ramp := fun h f => (M h *ᵥ fun j : Fin n => f.getD j 0) k

theorem matRamp_ofFn (M : I32 → Matrix (Fin n) (Fin n) ℝ) (k : Fin n) (h : I32) (u : Fin n → ℝ) : matRamp M k h (List.ofFn u) = (M h *ᵥ u) k := by
  unfold matRamp; congr 2; funext j; simp

theorem matRamp_cont (M : I32 → Matrix (Fin n) (Fin n) ℝ) (k : Fin n) : RampCont n (matRamp M k) := by
  intro h; simp only [matRamp_ofFn, mulVec, dotProduct]; fun_prop

theorem contribution_mat (M : I32 → Matrix (Fin n) (Fin n) ℝ) (k : Fin n) (seed : I32) (r2 : ℝ) (p : Fin n → ℝ) (v : Fin n → ℤ) :
    contribution (matRamp M k) seed r2 p v = vecContribution M seed r2 p v k := by
  simp only [contribution, matRamp_ofFn, vecContribution, Pi.smul_apply, smul_eq_mul]

theorem gridNoise_mat (M : I32 → Matrix (Fin n) (Fin n) ℝ) (k : Fin n) (seed : I32) (r2 : ℝ) (p : Fin n → ℝ) :
    gridNoise (matRamp M k) seed r2 p = gridVector M seed r2 p k := by
  simp only [gridNoise, gridVector, contribution_mat]

theorem gridVector_continuous (M : I32 → Matrix (Fin n) (Fin n) ℝ) (seed : I32) (r2 : ℝ) : Continuous fun p : Fin n → ℝ => gridVector M seed r2 p := by
  refine continuous_pi fun k => ?_
  simp only [← gridNoise_mat]
  exact gridNoise_continuous _ (matRamp_cont M k) seed r2

/-- All matrices, by dimension. -/
def matrices (ft : Feat) (s : Scheme) : (n : Nat) → I32 → Matrix (Fin n) (Fin n) ℝ
  | 2 => matrices2 s
  | 3 => matrices3 s
  | 4 => matrices4 ft s
  | _ => fun _ => 0

theorem applyContribution_eq (hn : n = 2 ∨ n = 3 ∨ n = 4) (s : Scheme) (ft : Feat) (h : I32) (hm : h.msb = false) (f v : Fin n → ℝ) (m : ℝ) :
    applyContribution s ft h (List.ofFn f) m (List.ofFn v) = List.ofFn fun k => v k + m * (matrices ft s n h *ᵥ f) k := by
  rcases hn with rfl | rfl | rfl
  · rw [ofFn2 f, ofFn2 v]; exact apply2 s ft h hm f v m
  · rw [ofFn3 f, ofFn3 v]; exact apply3 s ft h hm f v m
  · rw [ofFn4 f, ofFn4 v]; exact apply4 s ft h hm f v m

theorem vecRamp_eq (hn : n = 2 ∨ n = 3 ∨ n = 4) (s : Scheme) (ft : Feat) (k : Fin n) (h : I32) (hm : h.msb = false) (u : Fin n → ℝ) :
    vecRamp s ft k h (List.ofFn u) = matRamp (matrices ft s n) k h (List.ofFn u) := by
  rw [matRamp_ofFn]
  unfold vecRamp
  have e : List.replicate (List.ofFn u).length (0 : ℝ) = List.ofFn fun _ : Fin n => (0 : ℝ) := by simp [List.ofFn_const]
  rw [e, applyContribution_eq hn s ft h hm u _ 1]
  simp

theorem raw_vec (hn : n = 2 ∨ n = 3 ∨ n = 4) (s : Scheme) (ft : Feat) (k : Fin n) (seed : I32) (p : Fin n → ℝ) :
    simplexRaw (vecRamp s ft k) seed (List.ofFn p) = simplexRaw (matRamp (matrices ft s n) k) seed (List.ofFn p) ∧
    superRaw (vecRamp s ft k) seed (List.ofFn p) = superRaw (matRamp (matrices ft s n) k) seed (List.ofFn p) :=
  raw_congr hn _ _ (fun h hm u => vecRamp_eq hn s ft k h hm u) seed p

/-! ## The warp functions -/

theorem matchOrientation_ofFn (hn : n = 2 ∨ n = 3 ∨ n = 4) (s : Scheme) (c : ℝ) (v : Fin n → ℝ) : matchOrientation s c (List.ofFn v) = List.ofFn (orient c s v) := by
  rcases hn with rfl | rfl | rfl
  · rw [ofFn2, ofFn2]; cases s <;> simp [matchOrientation, orient]
  · rw [ofFn3, ofFn3]; cases s <;> simp [matchOrientation, orient, Fin.sum_univ_three]
  · rw [ofFn4, ofFn4]; cases s <;> simp [matchOrientation, orient]

theorem sumSqL_ofFn (v : Fin n → ℝ) : sumSqL (List.ofFn v) = ∑ k, v k ^ 2 := by
  have key : ∀ (l : List ℝ) (a : ℝ), l.foldl (fun acc v => Num.fma v v acc) a = a + (l.map (· ^ 2)).sum := by
    intro l
    induction l with
    | nil => intro a; simp
    | cons x l ih => intro a; rw [List.foldl_cons, ih]; simp only [List.map_cons, List.sum_cons, Num.fma]; ring
  rw [sumSqL, key, zero_add, List.map_ofFn, List.sum_ofFn]; rfl

theorem finish_ofFn (b : ℝ) (axisScale : Nat → ℝ) (amp : ℝ) (v o : Fin n → ℝ) :
    finish b axisScale amp (List.ofFn v) (List.ofFn o) = (List.ofFn fun k => o k + amp * (b * axisScale k * v k), ∑ k : Fin n, (b * axisScale k * v k) ^ 2) := by
  have e : (List.ofFn v).mapIdx (fun k v => v * (b * axisScale k)) = List.ofFn fun k : Fin n => v k * (b * axisScale k) := by
    refine List.ext_getElem (by simp) fun i h1 h2 => ?_
    simp
  simp only [finish, e, sumSqL_ofFn]
  refine Prod.ext ?_ ?_
  · refine List.ext_getElem (by simp) fun i h1 h2 => ?_
    simp [Num.fma]; ring
  · show (∑ k : Fin n, (v k * (b * axisScale k)) ^ 2) = ∑ k : Fin n, (b * axisScale k * v k) ^ 2
    exact Finset.sum_congr rfl fun k _ => by ring

theorem range_ofFn (f : Nat → ℝ) : (List.range n).map f = List.ofFn fun k : Fin n => f k := by
  refine List.ext_getElem (by simp) fun i h1 h2 => ?_
  simp

/-- The vector summed by `DomainWarpSimplex`, before orientation. -/
def simplexVec (ft : Feat) (s : Scheme) (seed : I32) (p : Fin n → ℝ) : Fin n → ℝ := fun k => simplexRaw (matRamp (matrices ft s n) k) seed (List.ofFn p)
/-- The vector summed by `DomainWarpSuperSimplex`, before orientation. -/
def superVec (ft : Feat) (s : Scheme) (seed : I32) (p : Fin n → ℝ) : Fin n → ℝ := fun k => superRaw (matRamp (matrices ft s n) k) seed (List.ofFn p)

theorem simplexWarp_eq (hn : n = 2 ∨ n = 3 ∨ n = 4) (s : Scheme) (ft : Feat) (so : I32) (axisScale : Nat → ℝ) (seed : I32) (amp : ℝ) (p o : Fin n → ℝ) :
    simplexWarp s ft so axisScale seed amp (List.ofFn p) (List.ofFn o) =
      (List.ofFn fun k => o k + amp * (simplexBounding s n * axisScale k * orient (-1) s (simplexVec ft s (seed + so) p) k),
       ∑ k : Fin n, (simplexBounding s n * axisScale k * orient (-1) s (simplexVec ft s (seed + so) p) k) ^ 2) := by
  simp only [simplexWarp, List.length_ofFn, range_ofFn, (raw_vec hn s ft _ _ p).1]
  rw [matchOrientation_ofFn hn, finish_ofFn, show (-2 / 2 : ℝ) = -1 by norm_num]
  rfl

theorem superSimplexWarp_eq (hn : n = 2 ∨ n = 3 ∨ n = 4) (s : Scheme) (ft : Feat) (axisScale : Nat → ℝ) (seed : I32) (amp : ℝ) (p o : Fin n → ℝ) :
    superSimplexWarp s ft axisScale seed amp (List.ofFn p) (List.ofFn o) =
      (List.ofFn fun k => o k + amp * (superBounding s n * axisScale k * orient (-2 / 3) s (superVec ft s seed p) k),
       ∑ k : Fin n, (superBounding s n * axisScale k * orient (-2 / 3) s (superVec ft s seed p) k) ^ 2) := by
  simp only [superSimplexWarp, List.length_ofFn, range_ofFn, (raw_vec hn s ft _ _ p).2]
  rw [matchOrientation_ofFn hn, finish_ofFn]
  rfl

theorem simplexVec_sum (hn : n = 2 ∨ n = 3 ∨ n = 4) (ft : Feat) (s : Scheme) (seed : I32) (p : Fin n → ℝ) (h : Safe p) :
    ∃ t : Finset (Fin n → ℤ), (∀ v, distSq p (gridPoint v) < 1 / 2 → v ∈ t) ∧ simplexVec ft s seed p = ∑ v ∈ t, vecContribution (matrices ft s n) seed (simplexRadiusSq n) p v := by
  obtain ⟨t, h1, h2⟩ := partial_sum hn seed p fun i => (h i).1
  refine ⟨t, h1, ?_⟩
  funext k
  simp only [simplexVec, h2, contribution_mat, Finset.sum_apply]

theorem simplexVec2 (ft : Feat) (s : Scheme) (seed : I32) (p : Fin 2 → ℝ) (h : Safe p) : simplexVec ft s seed p = gridVector (matrices2 s) seed (1 / 2) p := by
  funext k
  rw [simplexVec, simplex2_noise _ _ _ fun i => (h i).1, gridNoise_mat]; rfl

theorem superVec2 (ft : Feat) (s : Scheme) (seed : I32) (p : Fin 2 → ℝ) (h : Safe p) : superVec ft s seed p = gridVector (matrices2 s) seed (2 / 3) p := by
  funext k
  rw [superVec, ofFn2, superRaw, super2_eq _ _ _ fun i => (h i).1, gridNoise_mat]; rfl

theorem superVec3 (ft : Feat) (s : Scheme) (seed : I32) (p : Fin 3 → ℝ) (h : Safe p) : superVec ft s seed p = fun k => gridVector (matrices3 s) seed (3 / 4) p k / 16 := by
  funext k
  rw [superVec, ofFn3, superRaw, super3_eq _ _ _ h, gridNoise_mat]; rfl

theorem superVec4_sum (ft : Feat) (s : Scheme) (seed : I32) (p : Fin 4 → ℝ) (h : Safe p) :
    ∃ t : Finset (Fin 4 → ℤ), (∀ v, distSq p (gridPoint v) < 18 / 25 → v ∈ t) ∧ superVec ft s seed p = fun k => (∑ v ∈ t, vecContribution (matrices4 ft s) seed (4 / 5) p v k) / 16 := by
  obtain ⟨t, h1, h2⟩ := partial_super4 seed p h
  refine ⟨t, h1, ?_⟩
  funext k
  simp only [superVec, h2, contribution_mat]; rfl

/-! ## For the properties -/

theorem matrices2_spec (s : Scheme) : matrices2 s = matrix2 s := by cases s <;> simp [matrices2, matrix2, orthMatrix2_spec]

theorem matrices3_spec (s : Scheme) : matrices3 s = gridMatrix3 s := by cases s <;> simp [matrices3, gridMatrix3, orthMatrix3_spec]

theorem orient_mirror (s : Scheme) (v : Fin 3 → ℝ) : orient (-2 / 3) s (fun k => v k / 16) = fun k => backMirror s v k / 16 := by
  cases s
  · simp [orient, backMirror]
  · funext k; simp [orient, backMirror, mirror, Fin.sum_univ_three]; ring

theorem int_quad {a b c d : ℤ} (h : ¬(a = 0 ∧ b = 0 ∧ c = 0 ∧ d = 0)) : 4 ≤ 5 * (a ^ 2 + b ^ 2 + c ^ 2 + d ^ 2) - (a + b + c + d) ^ 2 := by
  have e : 5 * (a ^ 2 + b ^ 2 + c ^ 2 + d ^ 2) - (a + b + c + d) ^ 2 =
      (a ^ 2 + b ^ 2 + c ^ 2 + d ^ 2) + ((a - b) ^ 2 + (a - c) ^ 2 + (a - d) ^ 2 + (b - c) ^ 2 + (b - d) ^ 2 + (c - d) ^ 2) := by ring
  have sq1 : ∀ z : ℤ, z ≠ 0 → 1 ≤ z ^ 2 := fun z hz => by have := sq_nonneg z; have : z ^ 2 ≠ 0 := pow_ne_zero 2 hz; omega
  have sq : ∀ z : ℤ, 0 ≤ z ^ 2 ∧ (z = 0 ∨ 1 ≤ z ^ 2) := fun z => ⟨sq_nonneg z, or_iff_not_imp_left.mpr (sq1 z)⟩
  rw [e]
  obtain ⟨a0, a1⟩ := sq a; obtain ⟨b0, b1⟩ := sq b; obtain ⟨c0, c1⟩ := sq c; obtain ⟨d0, d1⟩ := sq d
  obtain ⟨ab0, ab1⟩ := sq (a - b); obtain ⟨ac0, ac1⟩ := sq (a - c); obtain ⟨ad0, ad1⟩ := sq (a - d); obtain ⟨bc0, bc1⟩ := sq (b - c)
  obtain ⟨bd0, bd1⟩ := sq (b - d); obtain ⟨cd0, cd1⟩ := sq (c - d)
  omega

theorem far_from_near4 (p : Fin 4 → ℝ) (hp : ∑ i, p i ^ 2 ≤ 1 / 100) (v : Fin 4 → ℤ) (hv : v ≠ 0) : 3 / 5 ≤ distSq p (gridPoint v) := by
  have hq : 4 / 5 ≤ ∑ i, gridPoint v i ^ 2 := by
    have e : ∑ i, gridPoint v i ^ 2 = distSq 0 (gridPoint v) := by simp [distSq]
    rw [e, distSq_gridPoint, Q]
    have h := int_quad (a := v 0) (b := v 1) (c := v 2) (d := v 3) fun h => hv (by funext i; fin_cases i <;> simp [h])
    have h' : (4 : ℝ) ≤ 5 * ((v 0 : ℝ) ^ 2 + (v 1 : ℝ) ^ 2 + (v 2 : ℝ) ^ 2 + (v 3 : ℝ) ^ 2) - ((v 0 : ℝ) + v 1 + v 2 + v 3) ^ 2 := by exact_mod_cast h
    simp only [Fin.sum_univ_four, skewed, Pi.zero_apply]
    norm_num
    nlinarith
  have hd : -7 * ∑ i, p i ^ 2 + 7 / 8 * ∑ i, gridPoint v i ^ 2 ≤ distSq p (gridPoint v) := by
    rw [distSq, Finset.mul_sum, Finset.mul_sum, ← Finset.sum_add_distrib]
    refine Finset.sum_le_sum fun i _ => ?_
    nlinarith [sq_nonneg (8 * p i - gridPoint v i)]
  linarith

/-- Within 1/10 of the origin only the grid point there contributes. -/
theorem simplexVec_near4 (ft : Feat) (s : Scheme) (seed : I32) (p : Fin 4 → ℝ) (hp : ∑ i, p i ^ 2 ≤ 1 / 100) :
    simplexVec ft s seed p = vecContribution (matrices ft s 4) seed (3 / 5) p 0 := by
  have hb : ∀ i, |p i| ≤ 2 ^ 28 := by
    intro i
    have : p i ^ 2 ≤ ∑ i, p i ^ 2 := Finset.single_le_sum (f := fun i => p i ^ 2) (fun j _ => sq_nonneg (p j)) (Finset.mem_univ i)
    refine (abs_le_of_sq_le_sq (b := 1) (by nlinarith) (by norm_num)).trans (by norm_num)
  obtain ⟨t, h1, h2⟩ := simplexVec_sum (.inr (.inr rfl)) ft s seed p (safe_of_bound (.inr (.inr rfl)) _ hb)
  have hg : gridPoint (0 : Fin 4 → ℤ) = 0 := by funext i; simp [gridPoint]
  rw [h2, show simplexRadiusSq 4 = 3 / 5 by norm_num [simplexRadiusSq], Finset.sum_eq_single_of_mem (0 : Fin 4 → ℤ)]
  · apply h1; rw [hg]; simp only [distSq, Pi.zero_apply, sub_zero]; linarith
  · intro v _ hv
    have := far_from_near4 p hp v hv
    rw [vecContribution, max_eq_right (by linarith)]; simp

theorem skew4_pos : 0 < Gradient.skew4 := by unfold Gradient.skew4; positivity

theorem orthMatrix4_zero :
    (∀ ft : Feat, ft.avx512 = true → orthMatrix4 ft 0 0 0 = -0.5) ∧
    (∀ ft : Feat, ft.avx512 = false ∧ ft.avx2 = true → orthMatrix4 ft 0 0 0 = 0.5 + Gradient.skew4) ∧
    (∀ ft : Feat, ft.avx512 = false ∧ ft.avx2 = false → orthMatrix4 ft 0 0 0 = -0.5 + Gradient.skew4) := by
  have hi : valueIndices 0 = (0, 1, 2) := by decide
  have hz : ((0 : I32) >>> 2) * 5 = 0 := by decide
  have hs : sg ((0 : I32) <<< 31).msb = 1 := by simp [sg]
  refine ⟨fun ft h => ?_, fun ft h => ?_, fun ft h => ?_⟩
  · simp only [orthMatrix4, hi, hs, cols4, h, hz, if_true]
    simp [pickRow, pick, selectHighBit, cols512, perm32, sIdxABC, kNegAB, dSingleAB]
    norm_num
  · simp only [orthMatrix4, hi, hs, cols4, h, hz]
    simp [pickRow, pick, selectHighBit, cols256, block256, perm8, eIdxABC, kNegAB, dSingleAB, dExtra]
    norm_num1
    ring
  · simp only [orthMatrix4, hi, hs, cols4, h, hz]
    simp [pickRow, pick, selectHighBit, colsGen, blockGen, kNegAB, dSingleAB, dExtra, maskedAdd, maskedIncrement, select]
    norm_num1
    ring

theorem orthMatrix4_nine (ft : Feat) :
    orthMatrix4 ft (gridHash (9 + 0) (0 : Fin 4 → ℤ)) 1 = orthMatrix4 ft (gridHash (9 + 0) (0 : Fin 4 → ℤ)) 0 ∧
    orthMatrix4 ft (gridHash (9 + 0) (0 : Fin 4 → ℤ)) 3 = orthMatrix4 ft (gridHash (9 + 0) (0 : Fin 4 → ℤ)) 0 := by
  obtain ⟨h, hh⟩ : ∃ h, h = gridHash (9 + 0) (0 : Fin 4 → ℤ) := ⟨_, rfl⟩
  have hv : (valueIndices h).1 <<< 31 = 0 ∧ ((valueIndices h).1 <<< 30).msb = true ∧ (valueIndices h).2.1 <<< 31 = 0 ∧ ((valueIndices h).2.1 <<< 30).msb = true ∧
      ((valueIndices h).1 + (valueIndices h).2.1 + (valueIndices h).2.2) <<< 31 = 0 ∧ (((valueIndices h).1 + (valueIndices h).2.1 + (valueIndices h).2.2) <<< 30).msb = false := by
    rw [hh]; decide
  rw [← hh]
  obtain ⟨a, b, c, d, e, f⟩ := hv
  have key : ∀ r r' : Fin 4 → ℝ, r = r' → ∀ s : ℝ, s • r = s • r' := fun r r' h s => by rw [h]
  constructor
  · refine key _ _ ?_ _
    show pickRow (valueIndices h).2.1 (cols4 ft h) = pickRow (valueIndices h).1 (cols4 ft h)
    simp [pickRow, pick, selectHighBit, a, b, c, d, -BitVec.msb_shiftLeft]
  · refine key _ _ ?_ _
    show lastRow _ (cols4 ft h) = pickRow (valueIndices h).1 (cols4 ft h)
    simp only [pickRow, lastRow, pick, selectHighBit, a, b, e, f]; simp

end
end FastNoise.WarpSimplex
