import Verif.SimplexSuper4
import Mathlib.Topology.Order.LeftRightNhds
/-!
# Simplex noise: position in the simplex, ranges, limits
-/
namespace FastNoise.Simplex
open FastNoise.Hash FastNoise.Num FastNoise.Gradient FastNoise.Lattice

noncomputable section

variable {n : Nat}

/-! ## The simplex contains the position -/

theorem skewed_unskew (u : Fin n → ℝ) : skewed (unskew u) = u := by
  rcases Nat.eq_zero_or_pos n with rfl | hn
  · funext i; exact i.elim0
  funext i
  have h := stretch_squash (n := n) (by omega)
  simp only [skewed, unskew, Finset.sum_add_distrib, Finset.sum_const, Finset.card_univ, Fintype.card_fin, nsmul_eq_mul]
  linear_combination (∑ j, u j) * h

theorem gridPoint_eq (v : Fin n → ℤ) : gridPoint v = unskew fun i => (v i : ℝ) := rfl

/-- The weights of the corners: differences of the sorted coordinates, with 1 in front and 0 behind. -/
def level (d : Fin n → ℝ) (rank : Equiv.Perm (Fin n)) : Nat → ℝ
  | 0 => 1
  | j + 1 => if h : j < n then d (rank.symm ⟨j, h⟩) else 0

theorem inSimplex_of_sorted (p : Fin n → ℝ) (rank : Equiv.Perm (Fin n)) (hs : ∀ i j, rank i < rank j → frac p j ≤ frac p i) : InSimplex p (base p) rank := by
  have h0 : ∀ i, 0 ≤ frac p i := fun i => Int.fract_nonneg _
  have h1 : ∀ i, frac p i ≤ 1 := fun i => (Int.fract_lt_one _).le
  refine ⟨fun k => level (frac p) rank k - level (frac p) rank (k + 1), ?_, ?_, ?_⟩
  · rintro ⟨k, hk⟩
    simp only [sub_nonneg]
    rcases k with _ | k
    · simp only [level]
      split_ifs
      · exact h1 _
      · norm_num
    · simp only [level]
      rw [dif_pos (show k < n by omega)]
      split_ifs with h
      · refine hs _ _ ?_
        simp
      · exact h0 _
  · rw [Fin.sum_univ_eq_sum_range (fun k => level (frac p) rank k - level (frac p) rank (k + 1)), Finset.sum_range_sub']
    simp [level]
  · have hc : ∀ i, ∑ k : Fin (n + 1), (level (frac p) rank k - level (frac p) rank (k + 1)) * ((corner (base p) rank k i : ℤ) : ℝ) = skewed p i := by
      intro i
      have e : ∀ k : Fin (n + 1), (level (frac p) rank k - level (frac p) rank (k + 1)) * ((corner (base p) rank k i : ℤ) : ℝ) =
          (level (frac p) rank k - level (frac p) rank (k + 1)) * base p i +
            (if (rank i : Nat) < k then level (frac p) rank k - level (frac p) rank (k + 1) else 0) := by
        intro k; simp only [corner]; split_ifs <;> push_cast <;> ring
      rw [Finset.sum_congr rfl fun k _ => e k, Finset.sum_add_distrib, ← Finset.sum_mul]
      rw [Fin.sum_univ_eq_sum_range (fun k => level (frac p) rank k - level (frac p) rank (k + 1)), Finset.sum_range_sub',
        Fin.sum_univ_eq_sum_range (fun k => if (rank i : Nat) < k then level (frac p) rank k - level (frac p) rank (k + 1) else 0)]
      have hr : ∀ m, (rank i : Nat) < m → ∑ k ∈ Finset.range m, (if (rank i : Nat) < k then level (frac p) rank k - level (frac p) rank (k + 1) else 0) =
          level (frac p) rank (rank i + 1) - level (frac p) rank m := by
        intro m hm
        induction m with
        | zero => omega
        | succ m ih =>
          rw [Finset.sum_range_succ]
          by_cases h : (rank i : Nat) < m
          · rw [ih h, if_pos h]; ring
          · have : (rank i : Nat) = m := by omega
            rw [if_neg h, Finset.sum_eq_zero, this]
            · simp
            · intro k hk; rw [if_neg]; have := Finset.mem_range.mp hk; omega
      rw [hr (n + 1) (by have := (rank i).isLt; omega)]
      have l0 : level (frac p) rank 0 = 1 := rfl
      have l1 : level (frac p) rank (n + 1) = 0 := by simp [level]
      have l2 : level (frac p) rank (rank i + 1) = frac p i := by simp [level]
      rw [l0, l1, l2]
      simp only [frac, base]; ring
    intro i
    have e : ∀ k : Fin (n + 1), gridPoint (corner (base p) rank k) i = ((corner (base p) rank k i : ℤ) : ℝ) + squash n * ∑ j, ((corner (base p) rank k j : ℤ) : ℝ) := fun k => rfl
    simp only [e, mul_add, Finset.sum_add_distrib]
    rw [hc i]
    have : ∑ k : Fin (n + 1), (level (frac p) rank k - level (frac p) rank (k + 1)) * (squash n * ∑ j, ((corner (base p) rank k j : ℤ) : ℝ)) =
        squash n * ∑ j, skewed p j := by
      simp only [← hc]
      rw [Finset.sum_comm, Finset.mul_sum]
      refine Finset.sum_congr rfl fun k _ => ?_
      rw [← Finset.mul_sum]; ring
    rw [this]
    exact (congrFun (unskew_skewed p) i).symm

theorem corner_step (b : Fin n → ℤ) (rank : Equiv.Perm (Fin n)) (k : Nat) (hk : k < n) :
    corner b rank (k + 1) = Function.update (corner b rank k) (rank.symm ⟨k, hk⟩) (corner b rank k (rank.symm ⟨k, hk⟩) + 1) := by
  funext i
  by_cases h : i = rank.symm ⟨k, hk⟩
  · rw [h, Function.update_self]; simp [corner]
  · rw [Function.update_of_ne h]
    have : (rank i : Nat) ≠ k := by
      intro e; apply h; rw [Equiv.eq_symm_apply]; exact Fin.ext e
    simp only [corner]
    congr 1
    refine if_congr ?_ rfl rfl
    omega

theorem corner_sum (b : Fin n → ℤ) (rank : Equiv.Perm (Fin n)) (k : Nat) (hk : k ≤ n) : ∑ i, corner b rank k i = ∑ i, b i + k := by
  induction k with
  | zero => simp [corner]
  | succ k ih =>
    rw [corner_step b rank k (by omega), Finset.sum_update_of_mem (Finset.mem_univ _)]
    have := Finset.add_sum_erase Finset.univ (corner b rank k) (Finset.mem_univ (rank.symm ⟨k, hk⟩))
    have ih := ih (by omega)
    rw [Finset.sdiff_singleton_eq_erase]
    push_cast
    linarith

/-! ## Range -/

theorem stretch_bound (hn : n = 2 ∨ n = 3 ∨ n = 4) : 0 ≤ stretch n ∧ stretch n ≤ 1 / 2 := by
  rcases hn with rfl | rfl | rfl
  · rw [← kSkew2]; norm_num [kSkew]
    have h := sqrt3_sq; have h' := sqrt3_pos
    constructor
    · positivity
    · rw [inv_le_comm₀ (by positivity) (by norm_num)]; norm_num; nlinarith
  · rw [← kSkew3]; norm_num [kSkew]
  · rw [← kSkew4]; norm_num [kSkew]
    have h := sqrt5_sq; have h' := sqrt5_pos
    constructor
    · positivity
    · rw [inv_le_comm₀ (by positivity) (by norm_num)]; norm_num; nlinarith

theorem safe_of_bound (hn : n = 2 ∨ n = 3 ∨ n = 4) (p : Fin n → ℝ) (h : ∀ i, |p i| ≤ 2 ^ 28) : Safe p := by
  intro i
  obtain ⟨s0, s1⟩ := stretch_bound hn
  have hsum : |∑ j, p j| ≤ 4 * 2 ^ 28 := by
    refine (Finset.abs_sum_le_sum_abs _ _).trans ((Finset.sum_le_sum fun j _ => h j).trans ?_)
    rw [Finset.sum_const, Finset.card_univ, Fintype.card_fin, nsmul_eq_mul]
    have : (n : ℝ) ≤ 4 := by rcases hn with rfl | rfl | rfl <;> norm_num
    nlinarith
  have hb : |skewed p i| ≤ 3 * 2 ^ 28 := by
    unfold skewed
    refine (abs_add_le _ _).trans ?_
    rw [abs_mul, abs_of_nonneg s0]
    have := h i
    nlinarith [abs_nonneg (∑ j, p j)]
  rw [abs_le] at hb
  constructor
  · constructor
    · rw [Int.le_floor]; push_cast; linarith
    · rw [Int.floor_lt]; push_cast; linarith
  · constructor
    · rw [Int.le_floor]; push_cast; linarith
    · rw [Int.floor_lt]; push_cast; linarith

/-! ## A criterion for jumps -/

theorem not_continuousAt_of_jump {f : (Fin n → ℝ) → ℝ} (γ : ℝ → Fin n → ℝ) (hγ : Continuous γ) (G₁ G₂ : (Fin n → ℝ) → ℝ) (c₁ : Continuous G₁) (c₂ : Continuous G₂)
    (ε : ℝ) (hε : 0 < ε) (h₁ : ∀ t, 0 < t → t < ε → f (γ t) = G₁ (γ t)) (h₂ : ∀ t, t < 0 → -ε < t → f (γ t) = G₂ (γ t)) (hne : G₁ (γ 0) ≠ G₂ (γ 0)) :
    ¬ContinuousAt f (γ 0) := by
  intro hc
  have hf : ContinuousAt (fun t => f (γ t)) 0 := ContinuousAt.comp (f := γ) hc hγ.continuousAt
  have t1 : Filter.Tendsto (fun t => f (γ t)) (nhdsWithin 0 (Set.Ioi 0)) (nhds (f (γ 0))) := hf.tendsto.mono_left nhdsWithin_le_nhds
  have t2 : Filter.Tendsto (fun t => f (γ t)) (nhdsWithin 0 (Set.Iio 0)) (nhds (f (γ 0))) := hf.tendsto.mono_left nhdsWithin_le_nhds
  have g1 : Filter.Tendsto (fun t => G₁ (γ t)) (nhdsWithin 0 (Set.Ioi 0)) (nhds (G₁ (γ 0))) :=
    ((c₁.comp hγ).tendsto 0).mono_left nhdsWithin_le_nhds
  have g2 : Filter.Tendsto (fun t => G₂ (γ t)) (nhdsWithin 0 (Set.Iio 0)) (nhds (G₂ (γ 0))) :=
    ((c₂.comp hγ).tendsto 0).mono_left nhdsWithin_le_nhds
  have e1 : (fun t => f (γ t)) =ᶠ[nhdsWithin 0 (Set.Ioi 0)] fun t => G₁ (γ t) := by
    filter_upwards [Ioo_mem_nhdsGT hε] with t ht using h₁ t ht.1 ht.2
  have e2 : (fun t => f (γ t)) =ᶠ[nhdsWithin 0 (Set.Iio 0)] fun t => G₂ (γ t) := by
    filter_upwards [Ioo_mem_nhdsLT (show -ε < 0 by linarith)] with t ht using h₂ t ht.2 ht.1
  have r1 := tendsto_nhds_unique (t1.congr' e1) g1
  have r2 := tendsto_nhds_unique (t2.congr' e2) g2
  exact hne (r1.symm.trans r2)

end
end FastNoise.Simplex
