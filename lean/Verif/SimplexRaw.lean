import Verif.SimplexMore
/-!
# Simplex sums for an arbitrary ramp

Shared by Simplex / SuperSimplex noise (`Verif.SimplexProps`) and the simplex domain warps (`Verif.WarpSimplexProps`).
-/
namespace FastNoise.Simplex
open FastNoise.Hash FastNoise.Num FastNoise.Basic FastNoise.Gradient

noncomputable section

variable {n : Nat}

theorem scale_pos (scale : ℝ) (x : Fin n → ℝ) : scalePositions (frequency scale) (List.ofFn x) = List.ofFn fun i => x i / scale := by
  simp only [scalePositions, frequency, List.map_ofFn]
  congr 1; funext i; simp [div_eq_mul_inv]

theorem ofFn2 (p : Fin 2 → ℝ) : List.ofFn p = [p 0, p 1] := by simp [List.ofFn_succ]
theorem ofFn3 (p : Fin 3 → ℝ) : List.ofFn p = [p 0, p 1, p 2] := by simp [List.ofFn_succ]
theorem ofFn4 (p : Fin 4 → ℝ) : List.ofFn p = [p 0, p 1, p 2, p 3] := by simp [List.ofFn_succ]

theorem simplexRaw_sums (hn : n = 2 ∨ n = 3 ∨ n = 4) (seed : I32) (p : Fin n → ℝ) (h : ∀ i, Lattice.InRange (skewed p i)) :
    IsSimplexSum seed (simplexRadiusSq n) p (fun ramp => simplexRaw ramp seed (List.ofFn p)) := by
  rcases hn with rfl | rfl | rfl
  · rw [ofFn2, show simplexRadiusSq 2 = 1 / 2 by simp [simplexRadiusSq]]; exact simplex2_eq seed p h
  · rw [ofFn3, show simplexRadiusSq 3 = 0.6 by norm_num [simplexRadiusSq]]; exact simplex3_eq seed p h
  · rw [ofFn4, show simplexRadiusSq 4 = 0.6 by norm_num [simplexRadiusSq]]; exact simplex4_eq seed p h

theorem simplexRaw_sum (hn : n = 2 ∨ n = 3 ∨ n = 4) (ramp : Ramp) (seed : I32) (p : Fin n → ℝ) (h : ∀ i, Lattice.InRange (skewed p i)) :
    ∃ rank : Equiv.Perm (Fin n), (∀ i j, rank i < rank j → frac p j ≤ frac p i) ∧
      simplexRaw ramp seed (List.ofFn p) = ∑ k : Fin (n + 1), contribution ramp seed (simplexRadiusSq n) p (corner (base p) rank k) := by
  obtain ⟨rank, hs, he⟩ := simplexRaw_sums hn seed p h
  exact ⟨rank, hs, he ramp⟩

theorem corner_injective (b : Fin n → ℤ) (order : Equiv.Perm (Fin n)) : Function.Injective fun k : Fin (n + 1) => corner b order k := by
  intro k k' h
  have h1 := corner_sum b order k (by omega)
  have h2 := corner_sum b order k' (by omega)
  simp only at h
  rw [h, h2] at h1
  exact Fin.ext (by omega)

theorem far_corner (p : Fin n → ℝ) (rank : Equiv.Perm (Fin n)) (hs : ∀ i j, rank i < rank j → frac p j ≤ frac p i) (v : Fin n → ℤ)
    (hv : v ∉ Finset.univ.image fun k : Fin (n + 1) => corner (base p) rank k) : 1 / 2 ≤ Q fun i => skewed p i - v i := by
  refine (Q_ge_half (frac p) (fun i => ⟨Int.fract_nonneg _, (Int.fract_lt_one _).le⟩) rank hs (fun i => v i - base p i) ?_).trans (le_of_eq ?_)
  · intro k e
    refine hv (Finset.mem_image.mpr ⟨k, Finset.mem_univ _, ?_⟩)
    funext i
    have := congrFun e i
    simp only [corner, Pi.zero_apply] at this ⊢
    omega
  · congr 1; funext i; simp only [frac, base]; push_cast; ring

theorem simplex2_noise (ramp : Ramp) (seed : I32) (p : Fin 2 → ℝ) (h : ∀ i, Lattice.InRange (skewed p i)) : simplexRaw ramp seed (List.ofFn p) = gridNoise ramp seed (1 / 2) p := by
  obtain ⟨rank, hs, he⟩ := simplexRaw_sum (.inl rfl) ramp seed p h
  rw [he, show simplexRadiusSq 2 = 1 / 2 by simp [simplexRadiusSq]]
  rw [gridNoise_eq ramp seed (1 / 2) p (Finset.univ.image fun k : Fin 3 => corner (base p) rank k)]
  · rw [Finset.sum_image]
    intro _ _ _ _ e; exact corner_injective (base p) rank e
  · intro v hv; exact far_corner p rank hs v hv

theorem partial_sum (hn : n = 2 ∨ n = 3 ∨ n = 4) (seed : I32) (p : Fin n → ℝ) (h : ∀ i, Lattice.InRange (skewed p i)) :
    ∃ s : Finset (Fin n → ℤ), (∀ v, distSq p (gridPoint v) < 1 / 2 → v ∈ s) ∧
      ∀ ramp, simplexRaw ramp seed (List.ofFn p) = ∑ v ∈ s, contribution ramp seed (simplexRadiusSq n) p v := by
  obtain ⟨rank, hs, he⟩ := simplexRaw_sums hn seed p h
  refine ⟨Finset.univ.image fun k : Fin (n + 1) => corner (base p) rank k, ?_, ?_⟩
  · intro v hv
    rw [distSq_gridPoint] at hv
    by_contra hcon
    have := far_corner _ rank hs v hcon
    linarith
  · intro ramp
    rw [Finset.sum_image fun _ _ _ _ e => corner_injective _ rank e, ← he ramp]

theorem partial_super4 (seed : I32) (p : Fin 4 → ℝ) (h : Safe p) :
    ∃ s : Finset (Fin 4 → ℤ), (∀ v, distSq p (gridPoint v) < 18 / 25 → v ∈ s) ∧
      ∀ ramp, superRaw ramp seed (List.ofFn p) = (∑ v ∈ s, contribution ramp seed (4 / 5) p v) / 16 := by
  refine ⟨Finset.univ.image (step (near4 p) (off4 p)), ?_, ?_⟩
  · intro v hv
    rw [distSq_gridPoint] at hv
    by_contra hcon
    have := far_of_not_step (off4 p) (off4_voronoi p) (fun i => v i - near4 p i) ?_
    · have e : (fun i => off4 p i - ((v i - near4 p i : ℤ) : ℝ)) = fun i => skewed p i - v i := by funext i; rw [off4_eq]; push_cast; ring
      rw [e] at this
      norm_num at this
      linarith
    · intro m e
      refine hcon (Finset.mem_image.mpr ⟨m, Finset.mem_univ _, ?_⟩)
      funext i
      have := congrFun e i
      simp only [step, Pi.zero_apply] at this ⊢
      omega
  · intro ramp
    rw [ofFn4, superRaw, super4_sum ramp seed p h, Finset.sum_image fun _ _ _ _ e => step_injective _ _ e]

end
end FastNoise.Simplex
