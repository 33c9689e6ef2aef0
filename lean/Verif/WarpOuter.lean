import Verif.SimplexRangeLemmas
import Verif.WarpGradSpec
import Mathlib.Data.Fintype.Perm
import Verif.RangeCertOuterSimplex2All
import Verif.RangeCertOuterSuper2All
import Verif.RangeCertOuterSimplex4All
import Verif.RangeCertOuterSuper4All
/-! # Bounds of sums of ramps with the gradients of the outer product warps, from the checker `Verif.RangeCheck` -/
namespace FastNoise.Simplex
open FastNoise.Hash FastNoise.Num FastNoise.Gradient FastNoise.Lattice FastNoise.RangeCheck FastNoise.WarpGrad

noncomputable section

/-! ## 2D -/

/-- One of the twelve gradients. -/
def IsRoot2 (g : Fin 2 → ℝ) : Prop := ∃ i : Fin 12, g = vec2 (Gradient.simplex2 i)

theorem perms2 : ∀ σ : Equiv.Perm (Fin 2), σ = 1 ∨ σ = Equiv.swap 0 1 := by decide

theorem isRoot2_symmetric : Symmetric IsRoot2 := by
  constructor
  · rintro g σ ⟨i, rfl⟩
    rcases perms2 σ with rfl | rfl
    · exact ⟨i, rfl⟩
    · refine ⟨![2, 3, 0, 1, 6, 7, 4, 5, 10, 11, 8, 9] i, ?_⟩
      funext j
      fin_cases j <;> fin_cases i <;> simp [vec2, Gradient.simplex2]
  · rintro g ⟨i, rfl⟩
    refine ⟨![1, 0, 3, 2, 5, 4, 7, 6, 9, 8, 11, 10] i, ?_⟩
    funext j
    fin_cases j <;> fin_cases i <;> simp [vec2, Gradient.simplex2]

theorem coversRoot2 : CoversOf IsRoot2 OuterSimplex2.gs (2 ^ 40) 1 := by
  rintro g ⟨i, rfl⟩
  refine ⟨fun j => (OuterSimplex2.gs.getD i []).getD j (0, 0), ?_, ?_⟩
  · revert i; decide +kernel
  · have h3 := sqrt3_bounds
    have hs : √(3 : ℝ) * √3 = 3 := Real.mul_self_sqrt (by norm_num)
    intro j
    fin_cases j <;> fin_cases i <;> simp only [slope, tilt2, vec2, Gradient.simplex2, OuterSimplex2.gs, Fin.sum_univ_two] <;> norm_num [zr] <;> (rw [abs_le]; constructor <;> nlinarith)

/-! ## 4D -/

/-- One of the twenty gradients. -/
def IsRoot4 (g : Fin 4 → ℝ) : Prop :=
  (∃ (i : Fin 4) (b : Bool), g = fun j => sg b * (1 / (√5 + 1) + if j = i then 1 else 0)) ∨ ∃ i j : Fin 4, i ≠ j ∧ g = fun l => (if l = i then 1 else 0) - if l = j then 1 else 0

theorem isRoot4_symmetric : Symmetric IsRoot4 := by
  constructor
  · rintro g σ (⟨i, b, rfl⟩ | ⟨i, j, h, rfl⟩)
    · refine .inl ⟨σ.symm i, b, ?_⟩
      funext j
      simp only [Function.comp_apply, Equiv.eq_symm_apply]
    · refine .inr ⟨σ.symm i, σ.symm j, fun e => h (σ.symm.injective e), ?_⟩
      funext l
      simp only [Function.comp_apply, Equiv.eq_symm_apply]
  · rintro g (⟨i, b, rfl⟩ | ⟨i, j, h, rfl⟩)
    · refine .inl ⟨i, !b, ?_⟩
      funext j
      cases b <;> simp [sg]
    · refine .inr ⟨j, i, fun e => h e.symm, ?_⟩
      funext l
      simp only [Pi.neg_apply]; ring

theorem isRoot4 (i : Fin 20) : IsRoot4 (WarpGrad.vec4 (Gradient.simplex4 i)) := by
  have a : ∀ (k : Fin 4) (b : Bool), IsRoot4 fun j => sg b * (1 / (√5 + 1) + if j = k then 1 else 0) := fun k b => .inl ⟨k, b, rfl⟩
  have d : ∀ k l : Fin 4, k ≠ l → IsRoot4 fun m => (if m = k then 1 else 0) - if m = l then 1 else 0 := fun k l h => .inr ⟨k, l, h, rfl⟩
  have t : ∀ {g h : Fin 4 → ℝ}, IsRoot4 g → h = g → IsRoot4 h := fun hg e => e ▸ hg
  fin_cases i
  · refine t (a 0 true) ?_; funext j; fin_cases j <;> simp [WarpGrad.vec4, Gradient.simplex4, sg]
  · refine t (a 1 true) ?_; funext j; fin_cases j <;> simp [WarpGrad.vec4, Gradient.simplex4, sg]
  · refine t (a 2 true) ?_; funext j; fin_cases j <;> simp [WarpGrad.vec4, Gradient.simplex4, sg]
  · refine t (a 3 true) ?_; funext j; fin_cases j <;> simp [WarpGrad.vec4, Gradient.simplex4, sg]
  · refine t (d 1 0 (by decide)) ?_; funext j; fin_cases j <;> simp [WarpGrad.vec4, Gradient.simplex4]
  · refine t (d 0 1 (by decide)) ?_; funext j; fin_cases j <;> simp [WarpGrad.vec4, Gradient.simplex4]
  · refine t (d 3 2 (by decide)) ?_; funext j; fin_cases j <;> simp [WarpGrad.vec4, Gradient.simplex4]
  · refine t (d 2 3 (by decide)) ?_; funext j; fin_cases j <;> simp [WarpGrad.vec4, Gradient.simplex4]
  · refine t (d 2 0 (by decide)) ?_; funext j; fin_cases j <;> simp [WarpGrad.vec4, Gradient.simplex4]
  · refine t (d 3 1 (by decide)) ?_; funext j; fin_cases j <;> simp [WarpGrad.vec4, Gradient.simplex4]
  · refine t (d 0 2 (by decide)) ?_; funext j; fin_cases j <;> simp [WarpGrad.vec4, Gradient.simplex4]
  · refine t (d 1 3 (by decide)) ?_; funext j; fin_cases j <;> simp [WarpGrad.vec4, Gradient.simplex4]
  · refine t (d 3 0 (by decide)) ?_; funext j; fin_cases j <;> simp [WarpGrad.vec4, Gradient.simplex4]
  · refine t (d 2 1 (by decide)) ?_; funext j; fin_cases j <;> simp [WarpGrad.vec4, Gradient.simplex4]
  · refine t (d 1 2 (by decide)) ?_; funext j; fin_cases j <;> simp [WarpGrad.vec4, Gradient.simplex4]
  · refine t (d 0 3 (by decide)) ?_; funext j; fin_cases j <;> simp [WarpGrad.vec4, Gradient.simplex4]
  · refine t (a 0 false) ?_; funext j; fin_cases j <;> simp [WarpGrad.vec4, Gradient.simplex4, sg]
  · refine t (a 1 false) ?_; funext j; fin_cases j <;> simp [WarpGrad.vec4, Gradient.simplex4, sg]
  · refine t (a 2 false) ?_; funext j; fin_cases j <;> simp [WarpGrad.vec4, Gradient.simplex4, sg]
  · refine t (a 3 false) ?_; funext j; fin_cases j <;> simp [WarpGrad.vec4, Gradient.simplex4, sg]

theorem slope_axis (i : Fin 4) (b : Bool) (j : Fin 4) : slope (fun j => (sg b : ℝ) * (1 / (√5 + 1) + if j = i then 1 else 0)) j = (sg b * if j = i then 1 else 0 : ℤ) := by
  have h5 : √(5 : ℝ) * √5 = 5 := Real.mul_self_sqrt (by norm_num)
  have h0 : √(5 : ℝ) + 1 ≠ 0 := by positivity
  have e : 1 / (√(5 : ℝ) + 1) = (√5 - 1) / 4 := by field_simp; linarith
  have hs : ∑ j : Fin 4, ((sg b : ℝ) * (1 / (√5 + 1) + if j = i then 1 else 0)) = sg b * √5 := by
    rw [← Finset.mul_sum, Finset.sum_add_distrib, Finset.sum_ite_eq' Finset.univ i, e]
    simp; left; ring
  unfold slope
  rw [hs, tilt4, e]
  push_cast
  linear_combination (sg b : ℝ) * (1 / 20) * h5

theorem slope_diff (i k : Fin 4) (j : Fin 4) : slope (fun l => (if l = i then 1 else 0) - if l = k then (1 : ℝ) else 0) j = ((if j = i then 1 else 0) - if j = k then 1 else 0 : ℤ) := by
  unfold slope
  rw [Finset.sum_sub_distrib, Finset.sum_ite_eq' Finset.univ i, Finset.sum_ite_eq' Finset.univ k]
  push_cast
  simp

theorem coversRoot4 : CoversOf IsRoot4 OuterSimplex4.gs 1 0 := by
  rintro g (⟨i, b, rfl⟩ | ⟨i, k, h, rfl⟩)
  · refine ⟨fun j => zi (sg b * if j = i then 1 else 0), ?_, fun j => ?_⟩
    · revert i b; decide +kernel
    · rw [slope_axis, zr_zi]; simp
  · refine ⟨fun j => zi ((if j = i then 1 else 0) - if j = k then 1 else 0), ?_, fun j => ?_⟩
    · revert i k; decide +kernel
    · rw [slope_diff, zr_zi]; simp

/-! ## The bounds -/

/-- What sums of ramps over the corners of a simplex are at most: the reciprocals of the bounding constants. -/
def outerSimplexPeak (n : Nat) : ℝ := if n = 2 then 1 / 49.918426513671875 else 1.000001 / 33.653125584827855
/-- What sums of ramps over the whole grid are at most. -/
def outerSuperPeak (n : Nat) : ℝ := if n = 2 then 1.000001 / 9.28993664146183 else 1.01 * (16 / 115.21625311930542)

theorem outer_simplex2 (α : Fin 2 → ℝ) (hα : Sorted α) (G : Fin 3 → Fin 2 → ℝ) (hG : ∀ k, IsRoot2 (G k)) :
    ∑ k, bump (1 / 2) (fun i => α i - simplexV 2 k i) (G k) ≤ outerSimplexPeak 2 :=
  whole_le isRoot2_symmetric _ Fin.revPerm simplexV_flip
    (half_le (q := OuterSimplex2.par) (N := 65536) (S := 2 ^ 40) (δ := 1) (U := 2) rfl (by norm_num [OuterSimplex2.par]) (by norm_num) (by norm_num) coversRoot2 _
      OuterSimplex2.st (by decide +kernel) (by decide +kernel) 32768 rfl rfl _ OuterSimplex2.checked (fun α h k => by exact_mod_cast simplexV_sum h k) (by norm_num [unit, OuterSimplex2.par])
      (by norm_num [unit, OuterSimplex2.par, outerSimplexPeak])) α hα G hG
theorem outer_super2 (α : Fin 2 → ℝ) (hα : Sorted α) (G : Fin (4 ^ 2) → Fin 2 → ℝ) (hG : ∀ k, IsRoot2 (G k)) :
    ∑ k, bump (2 / 3) (fun i => α i - superV 2 k i) (G k) ≤ outerSuperPeak 2 :=
  whole_le isRoot2_symmetric _ (superFlip 2) superV_flip
    (half_le (q := OuterSuper2.par) (N := 65536) (S := 2 ^ 40) (δ := 1) (U := 4) rfl (by norm_num [OuterSuper2.par]) (by norm_num) (by norm_num)
      ((by decide +kernel : OuterSimplex2.gs = OuterSuper2.gs) ▸ coversRoot2) _
      OuterSuper2.st (by decide +kernel) (by decide +kernel) 32768 rfl rfl _ OuterSuper2.checked (fun α h k => by have := superV_sum h k; norm_num at this ⊢; exact this) (by norm_num [unit, OuterSuper2.par])
      (by norm_num [unit, OuterSuper2.par, outerSuperPeak])) α hα G hG
theorem outer_simplex4 (α : Fin 4 → ℝ) (hα : Sorted α) (G : Fin 5 → Fin 4 → ℝ) (hG : ∀ k, IsRoot4 (G k)) :
    ∑ k, bump (3 / 5) (fun i => α i - simplexV 4 k i) (G k) ≤ outerSimplexPeak 4 :=
  whole_le isRoot4_symmetric _ Fin.revPerm simplexV_flip
    (half_le (q := OuterSimplex4.par) (N := 65536) (S := 1) (δ := 0) (U := 4) rfl (by norm_num [OuterSimplex4.par]) (by norm_num) (by norm_num) coversRoot4 _
      OuterSimplex4.st (by decide +kernel) (by decide +kernel) 32768 rfl rfl _ OuterSimplex4.checked (fun α h k => by exact_mod_cast simplexV_sum h k) (by norm_num [unit, OuterSimplex4.par])
      (by norm_num [unit, OuterSimplex4.par, outerSimplexPeak])) α hα G hG
theorem outer_super4 (α : Fin 4 → ℝ) (hα : Sorted α) (G : Fin (4 ^ 4) → Fin 4 → ℝ) (hG : ∀ k, IsRoot4 (G k)) :
    ∑ k, bump (4 / 5) (fun i => α i - superV 4 k i) (G k) ≤ outerSuperPeak 4 :=
  whole_le isRoot4_symmetric _ (superFlip 4) superV_flip
    (half_le (q := OuterSuper4.par) (N := 65536) (S := 1) (δ := 0) (U := 8) rfl (by norm_num [OuterSuper4.par]) (by norm_num) (by norm_num)
      ((by decide +kernel : OuterSimplex4.gs = OuterSuper4.gs) ▸ coversRoot4) _
      OuterSuper4.st (by decide +kernel) (by decide +kernel) 32768 rfl rfl _ OuterSuper4.checked (fun α h k => by have := superV_sum h k; norm_num at this ⊢; exact this) (by norm_num [unit, OuterSuper4.par])
      (by norm_num [unit, OuterSuper4.par, outerSuperPeak])) α hα G hG

end
end FastNoise.Simplex
