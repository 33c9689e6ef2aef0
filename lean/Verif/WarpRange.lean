import Verif.NormCheckLemmas
import Verif.SimplexRange
import Verif.SimplexRangeLemmas
import Verif.WarpSimplexLemmas
import Verif.NormCertSimplex2All
import Verif.NormCertSimplex3All
import Verif.NormCertSuper2All
import Verif.NormCertSuper3All
import Verif.NormCertSimplex4All
import Verif.NormCertSuper4All
import Mathlib.Analysis.InnerProductSpace.PiL2
/-! # From warp vectors to the checker `Verif.NormCheck` -/
namespace FastNoise.Simplex
open FastNoise.Hash FastNoise.Num FastNoise.Gradient FastNoise.Lattice FastNoise.RangeCheck

noncomputable section

variable {n : Nat}

/-- The length of the contribution of a grid point at the skewed offset `u` from it, if its matrix preserves lengths. -/
def bell (r2 : ℝ) (u : Fin n → ℝ) : ℝ := max (r2 - Q u) 0 ^ 4 * √(Q u)

theorem bell_nonneg (r2 : ℝ) (u : Fin n → ℝ) : 0 ≤ bell r2 u := by unfold bell; positivity
theorem bell_perm (r2 : ℝ) (u : Fin n → ℝ) (σ : Equiv.Perm (Fin n)) : bell r2 (u ∘ σ) = bell r2 u := by simp only [bell, Q_perm]
theorem bell_neg (r2 : ℝ) (u : Fin n → ℝ) : bell r2 (-u) = bell r2 u := by simp only [bell, Q_minus]

/-- The unit of the checker's sums. -/
def unitN (q : Par) (N : Nat) : ℝ := (q.m * (N : ℝ) ^ 2) ^ 4 * (√(q.m * (N : ℝ) ^ 2) * 2 ^ 60)

theorem hump_bell {q : Par} {N : Nat} {R : ℝ} (ht : q.t = 1) (hm : q.m = n + 1) (hT : (q.T : ℝ) = R * (q.m * (N : ℝ) ^ 2)) (v : Fin n → ℤ) (α : Fin n → ℝ) :
    NormCheck.hump q (List.ofFn fun i => N * α i) (List.ofFn fun i => zi (v i * N)) = unitN q N * bell R fun i => α i - v i := by
  have hs : subR (List.ofFn fun i => (N : ℝ) * α i) (zrs (List.ofFn fun i => zi (v i * N))) = List.ofFn fun i => (N : ℝ) * (α i - v i) := by
    rw [zrs_ofFn, subR_ofFn]; congr 1; funext i; rw [zr_zi]; push_cast; ring
  have hl : RangeCheck.level q (List.ofFn fun i => (N : ℝ) * (α i - v i)) = (q.m * (N : ℝ) ^ 2) * (R - Q fun i => α i - v i) := by
    unfold RangeCheck.level Q
    rw [dotR_ofFn, sumR_ofFn, hT, ← Finset.mul_sum, ht]
    have : ∑ i, (N : ℝ) * (α i - v i) * (N * (α i - v i)) = N ^ 2 * ∑ i, (α i - v i) ^ 2 := by
      rw [Finset.mul_sum]; exact Finset.sum_congr rfl fun i _ => by ring
    rw [this, hm]
    have : ((n + 1 : ℕ) : ℝ) ≠ 0 := by positivity
    push_cast at this ⊢
    field_simp
  have hp : (0 : ℝ) ≤ q.m * (N : ℝ) ^ 2 := by positivity
  unfold NormCheck.hump unitN bell
  rw [hs, hl, hT, show R * (q.m * (N : ℝ) ^ 2) - q.m * (N : ℝ) ^ 2 * (R - Q fun i => α i - v i) = (q.m * (N : ℝ) ^ 2) * (Q fun i => α i - v i) by ring, Real.sqrt_mul hp,
    show max ((q.m * (N : ℝ) ^ 2) * (R - Q fun i => α i - v i)) 0 = (q.m * (N : ℝ) ^ 2) * max (R - Q fun i => α i - v i) 0 by rw [mul_max_of_nonneg _ _ hp, mul_zero]]
  ring

/-- The bound on the half region, by the checker. -/
theorem bell_half_le {q : Par} {N M : Nat} {R peak : ℝ} (ht1 : q.t = 1) (hm : q.m = n + 1) (hT : (q.T : ℝ) = R * (q.m * (N : ℝ) ^ 2))
    (V : Fin M → Fin n → ℤ) (st : List (List Z)) (hst : st = List.ofFn fun k => List.ofFn fun i => zi (V k i * N))
    (c : Nat) (hN : N = 2 * c) (hH : q.H = n * N) (t : Tree) (ht : NormCheck.check q t (List.replicate n c) (List.replicate n c) st = true)
    (hpos : 0 < unitN q N) (hB : q.B ≤ peak * unitN q N) (α : Fin n → ℝ) (hα : Sorted α) (hh : 2 * ∑ i, α i ≤ n) : ∑ k, bell R (fun i => α i - V k i) ≤ peak := by
  have hs := NormCheck.check_sound ht1 t _ _ st (by
      rw [hst, List.length_replicate]
      intro v hv
      rw [List.mem_ofFn] at hv
      obtain ⟨k, rfl⟩ := hv
      simp) (by simp [hm]) ht (List.ofFn fun i => N * α i)
    (inBox_ofFn c _ fun i => by
      have := hα.1 i
      have hc0 : (0 : ℝ) ≤ c := by positivity
      rw [hN]; push_cast
      rw [abs_le]; constructor <;> nlinarith)
    (down_ofFn _ fun i j hij => mul_le_mul_of_nonneg_left (hα.2 i j hij) (by positivity))
    (by rw [sumR_ofFn, hH, ← Finset.mul_sum]; push_cast; nlinarith [Nat.cast_nonneg (α := ℝ) N])
  rw [hst, List.map_ofFn, List.sum_ofFn] at hs
  simp only [Function.comp_apply, hump_bell ht1 hm hT, ← Finset.mul_sum] at hs
  rw [mul_comm] at hs
  exact le_of_mul_le_mul_right (hs.trans hB) hpos

/-- The whole region, if the grid points are symmetric. -/
theorem bell_whole_le {M : Nat} {R peak : ℝ} (V : Fin M → Fin n → ℤ) (τ : Equiv.Perm (Fin M)) (hτ : ∀ k i, V (τ k) i = 1 - V k i.rev)
    (hh : ∀ α : Fin n → ℝ, Sorted α → 2 * ∑ i, α i ≤ n → ∑ k, bell R (fun i => α i - V k i) ≤ peak)
    (α : Fin n → ℝ) (hα : Sorted α) : ∑ k, bell R (fun i => α i - V k i) ≤ peak := by
  rcases le_total (2 * ∑ i, α i) n with h | h
  · exact hh α hα h
  have key := hh _ (sorted_flip hα) (by
    have e : ∑ i : Fin n, α i.rev = ∑ i, α i := Equiv.sum_comp Fin.revPerm α
    rw [Finset.sum_sub_distrib, e]
    simp; linarith)
  rw [← Equiv.sum_comp τ] at key
  refine le_trans (le_of_eq (Finset.sum_congr rfl fun k _ => ?_)) key
  rw [← bell_perm _ _ Fin.revPerm, ← bell_neg]
  congr 1
  funext i
  simp only [Pi.neg_apply, Function.comp_apply, Fin.revPerm_apply, hτ]
  push_cast; ring

/-- What sums over the corners of a simplex are at most. -/
def simplexBell (n : Nat) : ℝ := if n = 2 then 0.010080214784 else if n = 3 then 0.025074187987 else 0.02312631
/-- What sums over the whole grid, with the radius of SuperSimplex, are at most. -/
def superBell (n : Nat) : ℝ := if n = 2 then 0.055180465479 else if n = 3 then 0.086776325965 else 0.12500001

theorem unit2 (q : Par) (h : q.m = 3) : unitN q 16777216 = (3 * 16777216 ^ 2) ^ 4 * (√3 * 16777216 * 2 ^ 60) := by
  unfold unitN
  rw [h]; push_cast
  rw [Real.sqrt_mul (by norm_num), Real.sqrt_sq (by norm_num)]
theorem unit3 (q : Par) (h : q.m = 4) (N : Nat) : unitN q N = (4 * (N : ℝ) ^ 2) ^ 4 * (2 * N * 2 ^ 60) := by
  unfold unitN
  rw [h]; push_cast
  rw [Real.sqrt_mul (by norm_num), Real.sqrt_sq (by positivity), sqrt4]

theorem unit4 (q : Par) (h : q.m = 5) : unitN q 16777216 = (5 * 16777216 ^ 2) ^ 4 * (√5 * 16777216 * 2 ^ 60) := by
  unfold unitN
  rw [h]; push_cast
  rw [Real.sqrt_mul (by norm_num), Real.sqrt_sq (by norm_num)]
theorem sqrt5_ge : (2.2360679774997896964 : ℝ) ≤ √5 := Real.le_sqrt_of_sq_le (by norm_num)

theorem bell_simplex2 (α : Fin 2 → ℝ) (hα : Sorted α) : ∑ k, bell (1 / 2) (fun i => α i - simplexV 2 k i) ≤ simplexBell 2 :=
  bell_whole_le _ Fin.revPerm simplexV_flip
    (bell_half_le (q := NormCheck.Simplex2.par) (N := 16777216) rfl rfl (by norm_num [NormCheck.Simplex2.par]) _
      NormCheck.Simplex2.st (by decide +kernel) 8388608 rfl rfl _ NormCheck.Simplex2.checked (by rw [unit2 _ rfl]; positivity)
      (by rw [unit2 _ rfl]; have := sqrt3_bounds.1; norm_num [NormCheck.Simplex2.par, simplexBell]; linarith)) α hα
theorem bell_simplex3 (α : Fin 3 → ℝ) (hα : Sorted α) : ∑ k, bell (3 / 5) (fun i => α i - simplexV 3 k i) ≤ simplexBell 3 :=
  bell_whole_le _ Fin.revPerm simplexV_flip
    (bell_half_le (q := NormCheck.Simplex3.par) (N := 20971520) rfl rfl (by norm_num [NormCheck.Simplex3.par]) _
      NormCheck.Simplex3.st (by decide +kernel) 10485760 rfl rfl _ NormCheck.Simplex3.checked (by rw [unit3 _ rfl]; positivity)
      (by rw [unit3 _ rfl]; norm_num [NormCheck.Simplex3.par, simplexBell])) α hα
theorem bell_super2 (α : Fin 2 → ℝ) (hα : Sorted α) : ∑ k, bell (2 / 3) (fun i => α i - superV 2 k i) ≤ superBell 2 :=
  bell_whole_le _ (superFlip 2) superV_flip
    (bell_half_le (q := NormCheck.Super2.par) (N := 16777216) rfl rfl (by norm_num [NormCheck.Super2.par]) _
      NormCheck.Super2.st (by decide +kernel) 8388608 rfl rfl _ NormCheck.Super2.checked (by rw [unit2 _ rfl]; positivity)
      (by rw [unit2 _ rfl]; have := sqrt3_bounds.1; norm_num [NormCheck.Super2.par, superBell]; linarith)) α hα
theorem bell_super3 (α : Fin 3 → ℝ) (hα : Sorted α) : ∑ k, bell (3 / 4) (fun i => α i - superV 3 k i) ≤ superBell 3 :=
  bell_whole_le _ (superFlip 3) superV_flip
    (bell_half_le (q := NormCheck.Super3.par) (N := 16777216) rfl rfl (by norm_num [NormCheck.Super3.par]) _
      NormCheck.Super3.st (by decide +kernel) 8388608 rfl rfl _ NormCheck.Super3.checked (by rw [unit3 _ rfl]; positivity)
      (by rw [unit3 _ rfl]; norm_num [NormCheck.Super3.par, superBell])) α hα

theorem bell_simplex4 (α : Fin 4 → ℝ) (hα : Sorted α) : ∑ k, bell (3 / 5) (fun i => α i - simplexV 4 k i) ≤ simplexBell 4 :=
  bell_whole_le _ Fin.revPerm simplexV_flip
    (bell_half_le (q := NormCheck.Simplex4.par) (N := 16777216) rfl rfl (by norm_num [NormCheck.Simplex4.par]) _
      NormCheck.Simplex4.st (by decide +kernel) 8388608 rfl rfl _ NormCheck.Simplex4.checked (by rw [unit4 _ rfl]; positivity)
      (by rw [unit4 _ rfl]; have := sqrt5_ge; norm_num [NormCheck.Simplex4.par, simplexBell]; linarith)) α hα
theorem bell_super4 (α : Fin 4 → ℝ) (hα : Sorted α) : ∑ k, bell (4 / 5) (fun i => α i - superV 4 k i) ≤ superBell 4 :=
  bell_whole_le _ (superFlip 4) superV_flip
    (bell_half_le (q := NormCheck.Super4.par) (N := 16777216) rfl rfl (by norm_num [NormCheck.Super4.par]) _
      NormCheck.Super4.st (by decide +kernel) 8388608 rfl rfl _ NormCheck.Super4.checked (by rw [unit4 _ rfl]; positivity)
      (by rw [unit4 _ rfl]; have := sqrt5_ge; norm_num [NormCheck.Super4.par, superBell]; linarith)) α hα

/-- The corners of the simplex around `p`. -/
theorem bell_corners_le (hn : n = 2 ∨ n = 3 ∨ n = 4) (p : Fin n → ℝ) (rank : Equiv.Perm (Fin n)) (hs : ∀ i j, rank i < rank j → frac p j ≤ frac p i) :
    ∑ k : Fin (n + 1), bell (simplexRadiusSq n) (fun i => skewed p i - corner (base p) rank k i) ≤ simplexBell n := by
  have hα : Sorted (frac p ∘ rank.symm) := by
    refine ⟨fun i => frac_range p _, fun i j hij => ?_⟩
    rcases eq_or_lt_of_le hij with rfl | h
    · exact le_rfl
    · exact hs _ _ (by simpa using h)
  have key : ∑ k, bell (simplexRadiusSq n) (fun i => (frac p ∘ rank.symm) i - simplexV n k i) ≤ simplexBell n := by
    rcases hn with rfl | rfl | rfl
    · simpa [simplexRadiusSq] using bell_simplex2 _ hα
    · simpa [simplexRadiusSq] using bell_simplex3 _ hα
    · simpa [simplexRadiusSq] using bell_simplex4 _ hα
  refine (le_of_eq (Finset.sum_congr rfl fun k _ => ?_)).trans key
  rw [← bell_perm _ (fun i => (frac p ∘ rank.symm) i - simplexV n k i) rank]
  congr 1
  funext i
  simp only [Function.comp_apply, Equiv.symm_apply_apply, corner, simplexV, frac, base]
  push_cast; ring

/-- The grid points that may be near `p`. -/
def nearPoints (p : Fin n → ℝ) : Finset (Fin n → ℤ) := Fintype.piFinset fun i => Finset.Icc (base p i - 1) (base p i + 2)

theorem far_points (p : Fin n → ℝ) (v : Fin n → ℤ) (hv : v ∉ nearPoints p) : superRadiusSq n ≤ Q fun i => skewed p i - v i := by
  have hr : superRadiusSq n ≤ 2 := by unfold superRadiusSq; split_ifs <;> norm_num
  rw [nearPoints, Fintype.mem_piFinset] at hv
  push Not at hv
  obtain ⟨i, hi⟩ := hv
  rw [Finset.mem_Icc] at hi
  refine hr.trans (le_trans ?_ (Q_ge_one _ i))
  have hf := frac_range p i
  have e : skewed p i - v i = frac p i - (v i - base p i : ℤ) := by simp only [frac, base]; push_cast; ring
  rw [e]
  have : v i - base p i ≤ -2 ∨ 3 ≤ v i - base p i := by omega
  rcases this with hi | hi
  · have : ((v i - base p i : ℤ) : ℝ) ≤ -2 := by exact_mod_cast hi
    nlinarith
  · have : (3 : ℝ) ≤ ((v i - base p i : ℤ) : ℝ) := by exact_mod_cast hi
    nlinarith

/-- Any set of grid points. -/
theorem bell_points_le (hn : n = 2 ∨ n = 3 ∨ n = 4) (p : Fin n → ℝ) (s : Finset (Fin n → ℤ)) : ∑ v ∈ s, bell (superRadiusSq n) (fun i => skewed p i - v i) ≤ superBell n := by
  classical
  obtain ⟨σ, hσ⟩ := exists_sorted (frac p) (frac_range p)
  set W : Fin (4 ^ n) → Fin n → ℤ := fun k i => base p i + superV n k (σ.symm i) with hW
  have hinj : Function.Injective W := by
    intro k k' e
    apply finFunctionFinEquiv.symm.injective
    funext i
    have := congrFun e (σ i)
    simp only [hW, superV, Equiv.symm_apply_apply] at this
    exact Fin.ext (by omega)
  have hterm : ∀ k, bell (superRadiusSq n) (fun i => (frac p ∘ σ) i - superV n k i) = bell (superRadiusSq n) (fun i => skewed p i - W k i) := by
    intro k
    rw [← bell_perm _ (fun i => (frac p ∘ σ) i - superV n k i) σ.symm]
    congr 1
    funext i
    simp only [hW, Function.comp_apply, Equiv.apply_symm_apply, frac, base]
    push_cast; ring
  have key : ∑ k, bell (superRadiusSq n) (fun i => (frac p ∘ σ) i - superV n k i) ≤ superBell n := by
    rcases hn with rfl | rfl | rfl
    · simpa [superRadiusSq] using bell_super2 _ hσ
    · simpa [superRadiusSq] using bell_super3 _ hσ
    · simpa [superRadiusSq] using bell_super4 _ hσ
  simp only [hterm] at key
  refine le_trans ?_ key
  calc ∑ v ∈ s, bell (superRadiusSq n) (fun i => skewed p i - v i)
      = ∑ v ∈ s.filter fun v => v ∈ nearPoints p, bell (superRadiusSq n) (fun i => skewed p i - v i) := by
        refine (Finset.sum_filter_of_ne fun v _ hne => ?_).symm
        by_contra hcon
        refine hne ?_
        unfold bell
        rw [max_eq_right (by linarith [far_points p v hcon])]; simp
    _ ≤ ∑ v ∈ Finset.univ.image W, bell (superRadiusSq n) (fun i => skewed p i - v i) := by
        refine Finset.sum_le_sum_of_subset_of_nonneg ?_ fun v _ _ => bell_nonneg _ _
        intro v hv
        have hv := (Finset.mem_filter.mp hv).2
        rw [nearPoints, Fintype.mem_piFinset] at hv
        simp only [Finset.mem_Icc] at hv
        refine Finset.mem_image.mpr ⟨finFunctionFinEquiv fun i => ⟨(v (σ i) - base p (σ i) + 1).toNat, by have := hv (σ i); omega⟩, Finset.mem_univ _, ?_⟩
        funext i
        simp only [hW, superV, Equiv.symm_apply_apply, Equiv.apply_symm_apply]
        have := hv i; omega
    _ = _ := by rw [Finset.sum_image fun _ _ _ _ e => hinj e]

end
end FastNoise.Simplex
