import Verif.SimplexSpec
import Mathlib.Tactic.FieldSimp
import Mathlib.Tactic.Linarith
import Mathlib.Tactic.FinCases
import Mathlib.Topology.Algebra.Monoid
import Mathlib.Data.Fintype.Pi
import Mathlib.Algebra.Order.Round
import Mathlib.Order.Interval.Finset.Defs
/-!
# Geometry of the simplex grid

In skewed coordinates the squared length of `u` is `Q u = Σ uᵢ² - (Σ uᵢ)² / (n + 1)`, which is the smallest value of `τ² + Σ (uᵢ - τ)²`: the quadratic form of the
lattice A_n*.  All facts hold for every dimension.
-/
namespace FastNoise.Simplex
open FastNoise.Hash FastNoise.Gradient

noncomputable section

variable {n : Nat}

/-- Squared length in skewed coordinates. -/
def Q (u : Fin n → ℝ) : ℝ := ∑ i, u i ^ 2 - (∑ i, u i) ^ 2 / (n + 1)

/-- From skewed to real coordinates. -/
def unskew (u : Fin n → ℝ) : Fin n → ℝ := fun i => u i + squash n * ∑ j, u j

/-- Stretching along the diagonal, the inverse of `unskew`. -/
def stretch (n : Nat) : ℝ := (√(n + 1) - 1) / n

/-- The skewed coordinates of a position. -/
def skewed (p : Fin n → ℝ) : Fin n → ℝ := fun i => p i + stretch n * ∑ j, p j

theorem squash_sq (hn : n ≠ 0) : 2 * squash n + n * squash n ^ 2 = -1 / (n + 1) := by
  have h : (0 : ℝ) < n + 1 := by positivity
  have h2 : √((n : ℝ) + 1) ≠ 0 := by positivity
  have hn' : (n : ℝ) ≠ 0 := by exact_mod_cast hn
  have e : (1 / √((n : ℝ) + 1)) ^ 2 = 1 / (n + 1) := by rw [div_pow, Real.sq_sqrt h.le]; simp
  have : 2 * squash n + n * squash n ^ 2 = ((1 / √((n : ℝ) + 1)) ^ 2 - 1) / n := by
    unfold squash; field_simp; ring
  rw [this, e]; field_simp; ring

theorem stretch_squash (hn : n ≠ 0) : stretch n + squash n + n * squash n * stretch n = 0 := by
  have h : (0 : ℝ) < n + 1 := by positivity
  have h2 : √((n : ℝ) + 1) ≠ 0 := by positivity
  have hn' : (n : ℝ) ≠ 0 := by exact_mod_cast hn
  unfold squash stretch; field_simp; ring

theorem unskew_sq (u : Fin n → ℝ) : ∑ i, unskew u i ^ 2 = Q u := by
  rcases Nat.eq_zero_or_pos n with rfl | hn
  · simp [Q]
  have h := squash_sq hn.ne'
  have e : ∑ i, unskew u i ^ 2 = ∑ i, u i ^ 2 + (2 * squash n + n * squash n ^ 2) * (∑ i, u i) ^ 2 := by
    simp only [unskew, add_sq, Finset.sum_add_distrib, Finset.sum_const, Finset.card_univ, Fintype.card_fin, nsmul_eq_mul]
    rw [← Finset.sum_mul, ← Finset.mul_sum]; ring
  rw [e, h, Q]; ring

theorem unskew_skewed (p : Fin n → ℝ) : unskew (skewed p) = p := by
  rcases Nat.eq_zero_or_pos n with rfl | hn
  · funext i; exact i.elim0
  funext i
  have h := stretch_squash hn.ne'
  simp only [unskew, skewed, Finset.sum_add_distrib, Finset.sum_const, Finset.card_univ, Fintype.card_fin, nsmul_eq_mul]
  linear_combination (∑ j, p j) * h

theorem sub_gridPoint (p : Fin n → ℝ) (v : Fin n → ℤ) : (fun i => p i - gridPoint v i) = unskew fun i => skewed p i - v i := by
  funext i
  have h := congrFun (unskew_skewed p) i
  simp only [unskew] at h
  simp only [unskew, gridPoint, Finset.sum_sub_distrib]
  linear_combination -h

theorem distSq_gridPoint (p : Fin n → ℝ) (v : Fin n → ℤ) : distSq p (gridPoint v) = Q fun i => skewed p i - v i := by
  rw [← unskew_sq, ← sub_gridPoint]; rfl

/-- The mean of the homogeneous coordinates. -/
def mean (u : Fin n → ℝ) : ℝ := (∑ i, u i) / (n + 1)

theorem sum_shift (u : Fin n → ℝ) (t : ℝ) : t ^ 2 + ∑ i, (u i - t) ^ 2 = Q u + (n + 1) * (mean u - t) ^ 2 := by
  have : ∑ i, (u i - t) ^ 2 = ∑ i, u i ^ 2 - 2 * t * ∑ i, u i + n * t ^ 2 := by
    simp only [sub_sq, Finset.sum_add_distrib, Finset.sum_sub_distrib, Finset.sum_const, Finset.card_univ, Fintype.card_fin, nsmul_eq_mul]
    rw [Finset.mul_sum]; congr 2; refine Finset.sum_congr rfl fun i _ => by ring
  rw [this, Q, mean]
  have : (n : ℝ) + 1 ≠ 0 := by positivity
  field_simp; ring

theorem Q_eq (u : Fin n → ℝ) : Q u = mean u ^ 2 + ∑ i, (u i - mean u) ^ 2 := by rw [sum_shift]; simp

theorem Q_le (u : Fin n → ℝ) (t : ℝ) : Q u ≤ t ^ 2 + ∑ i, (u i - t) ^ 2 := by
  rw [sum_shift]; nlinarith [mul_nonneg (by positivity : (0 : ℝ) ≤ (n : ℝ) + 1) (sq_nonneg (mean u - t))]

theorem Q_nonneg (u : Fin n → ℝ) : 0 ≤ Q u := by
  rw [Q_eq]; exact add_nonneg (sq_nonneg _) (Finset.sum_nonneg fun i _ => sq_nonneg _)

theorem Q_ge_one (u : Fin n → ℝ) (i : Fin n) : u i ^ 2 / 2 ≤ Q u := by
  rw [Q_eq]
  have : (u i - mean u) ^ 2 ≤ ∑ j, (u j - mean u) ^ 2 := Finset.single_le_sum (f := fun j => (u j - mean u) ^ 2) (fun j _ => sq_nonneg _) (Finset.mem_univ i)
  nlinarith [sq_nonneg (u i - 2 * mean u)]

theorem Q_ge_two (u : Fin n → ℝ) (i j : Fin n) : (u i - u j) ^ 2 / 2 ≤ Q u := by
  by_cases hij : i = j
  · subst hij; simpa using Q_nonneg u
  rw [Q_eq]
  have : (u i - mean u) ^ 2 + (u j - mean u) ^ 2 ≤ ∑ k, (u k - mean u) ^ 2 := by
    rw [← Finset.sum_pair (f := fun k => (u k - mean u) ^ 2) hij]
    exact Finset.sum_le_sum_of_subset_of_nonneg (Finset.subset_univ _) fun k _ _ => sq_nonneg _
  nlinarith [sq_nonneg (u i + u j - 2 * mean u), sq_nonneg (mean u)]

/-- Every grid point is at least as far away as some corner of the unit cube (in skewed coordinates) around the position. -/
theorem exists_cube_le (d : Fin n → ℝ) (hd : ∀ i, 0 ≤ d i ∧ d i < 1) (v : Fin n → ℤ) :
    ∃ c : Fin n → ℤ, (∀ i, c i = 0 ∨ c i = 1) ∧ Q (fun i => d i - c i) ≤ Q fun i => d i - v i := by
  obtain ⟨t, ht⟩ : ∃ t, mean (fun i => d i - (v i : ℝ)) = t := ⟨_, rfl⟩
  have hr : ∀ x : ℝ, ∀ m : ℤ, (x - round x) ^ 2 ≤ (x - m) ^ 2 := fun x m => sq_le_sq.mpr (round_le x m)
  refine ⟨fun i => round (d i - t) - round (-t), ?_, ?_⟩
  · intro i
    have h1 : round (-t) ≤ round (d i - t) := by rw [round_eq, round_eq]; exact Int.floor_mono (by linarith [(hd i).1])
    have h2 : round (d i - t) ≤ round (-t) + 1 := by
      rw [← round_add_one, round_eq, round_eq]; exact Int.floor_mono (by linarith [(hd i).2])
    simp only; omega
  · refine (Q_le _ (t + round (-t))).trans ?_
    rw [Q_eq, ht]
    refine add_le_add ?_ (Finset.sum_le_sum fun i _ => ?_)
    · have := hr (-t) 0
      push_cast at this; nlinarith
    · have := hr (d i - t) (v i)
      push_cast; nlinarith

/-- The corners of the simplex are the only grid points closer than `√(1/2)`. -/
theorem Q_ge_half (d : Fin n → ℝ) (hd : ∀ i, 0 ≤ d i ∧ d i ≤ 1) (rank : Equiv.Perm (Fin n)) (hs : ∀ i j, rank i < rank j → d j ≤ d i) (v : Fin n → ℤ)
    (hv : ∀ k : Fin (n + 1), v ≠ corner 0 rank k) : 1 / 2 ≤ Q fun i => d i - v i := by
  by_cases h0 : ∃ i, v i < 0
  · obtain ⟨i, hi⟩ := h0
    refine le_trans ?_ (Q_ge_one _ i)
    have : (v i : ℝ) ≤ -1 := by exact_mod_cast Int.le_sub_one_of_lt hi
    nlinarith [(hd i).1]
  by_cases h1 : ∃ i, 1 < v i
  · obtain ⟨i, hi⟩ := h1
    refine le_trans ?_ (Q_ge_one _ i)
    have : (2 : ℝ) ≤ v i := by exact_mod_cast hi
    nlinarith [(hd i).2]
  push Not at h0 h1
  by_cases h2 : ∃ i j, rank i < rank j ∧ v i = 0 ∧ v j = 1
  · obtain ⟨i, j, hr, hi, hj⟩ := h2
    refine le_trans ?_ (Q_ge_two _ i j)
    have := hs i j hr
    rw [hi, hj]; push_cast; nlinarith
  exfalso
  push Not at h2
  by_cases h3 : ∃ m : ℕ, ∃ i, (rank i : ℕ) = m ∧ v i = 0
  · classical
    obtain ⟨i, him, hi⟩ := Nat.find_spec h3
    have hmin : ∀ j, (rank j : ℕ) < rank i → v j = 1 := by
      intro j hj
      have := Nat.find_min h3 (him ▸ hj)
      push Not at this
      have := this j rfl; have := h0 j; have := h1 j; omega
    refine hv ⟨rank i, by omega⟩ (funext fun j => ?_)
    simp only [corner, Pi.zero_apply, zero_add]
    split_ifs with hj
    · exact hmin j hj
    · by_cases hij : i = j
      · subst hij; exact hi
      · have hne : rank i ≠ rank j := fun h => hij (rank.injective h)
        have : rank i < rank j := lt_of_le_of_ne (not_lt.mp hj) hne
        have := h2 i j this hi; have := h0 j; have := h1 j; omega
  · push Not at h3
    refine hv ⟨n, by omega⟩ (funext fun j => ?_)
    simp only [corner, Pi.zero_apply, zero_add]
    rw [if_pos (rank j).2]
    have := h3 _ j rfl; have := h0 j; have := h1 j; omega

/-! ## The Voronoi cell -/

/-- The bilinear form of `Q`. -/
def B (u w : Fin n → ℝ) : ℝ := ∑ i, u i * w i - (∑ i, u i) * (∑ i, w i) / (n + 1)

theorem Q_sub (u w : Fin n → ℝ) : Q (fun i => u i - w i) = Q u - 2 * B u w + Q w := by
  have e : ∑ i, (u i - w i) ^ 2 = ∑ i, u i ^ 2 - 2 * ∑ i, u i * w i + ∑ i, w i ^ 2 := by
    rw [Finset.mul_sum, ← Finset.sum_sub_distrib, ← Finset.sum_add_distrib]
    exact Finset.sum_congr rfl fun i _ => by ring
  simp only [Q, B, e, Finset.sum_sub_distrib]
  have : (n : ℝ) + 1 ≠ 0 := by positivity
  field_simp; ring

theorem B_neg (u w : Fin n → ℝ) : B u (fun i => -w i) = -B u w := by
  simp only [B, mul_neg, Finset.sum_neg_distrib]; ring

theorem Q_neg (w : Fin n → ℝ) : Q (fun i => -w i) = Q w := by
  simp only [Q, Finset.sum_neg_distrib, neg_sq]

/-- `0` is a grid point nearest to `d`. -/
def Voronoi (d : Fin n → ℝ) : Prop := ∀ v : Fin n → ℤ, Q d ≤ Q fun i => d i - v i

theorem Voronoi.B_le {d : Fin n → ℝ} (h : Voronoi d) (v : Fin n → ℤ) : 2 * B d (fun i => v i) ≤ Q fun i => (v i : ℝ) := by
  have := h v; rw [Q_sub] at this; linarith

theorem Voronoi.axis {d : Fin n → ℝ} (h : Voronoi d) (i : Fin n) : |d i - mean d| ≤ n / (2 * (n + 1)) := by
  have hB : B d (fun j => ((Pi.single i 1 : Fin n → ℤ) j : ℝ)) = d i - mean d := by
    simp [B, mean, Pi.single_apply]
  have hQ : Q (fun j => ((Pi.single i 1 : Fin n → ℤ) j : ℝ)) = n / (n + 1) := by
    simp [Q, Pi.single_apply]
    have : (n : ℝ) + 1 ≠ 0 := by positivity
    field_simp; ring
  have h1 := h.B_le (Pi.single i 1)
  have h2 := h.B_le (fun j => -(Pi.single i 1 : Fin n → ℤ) j)
  have e : (fun j => ((-(Pi.single i 1 : Fin n → ℤ) j : ℤ) : ℝ)) = fun j => -(((Pi.single i 1 : Fin n → ℤ) j : ℤ) : ℝ) := by funext j; push_cast; rfl
  rw [e, B_neg, Q_neg] at h2
  rw [hB, hQ] at h1 h2
  have e2 : (n : ℝ) / (n + 1) = 2 * (n / (2 * (n + 1))) := by
    have : (n : ℝ) + 1 ≠ 0 := by positivity
    field_simp
  rw [e2] at h1 h2
  rw [abs_le]; constructor <;> linarith

theorem Voronoi.mean {d : Fin n → ℝ} (h : Voronoi d) : |mean d| ≤ n / (2 * (n + 1)) := by
  have h0 : (n : ℝ) + 1 ≠ 0 := by positivity
  have hB : B d (fun _ => ((1 : ℤ) : ℝ)) = Simplex.mean d := by
    simp [B, Simplex.mean]; field_simp; ring
  have hQ : Q (fun _ : Fin n => ((1 : ℤ) : ℝ)) = n / (n + 1) := by
    simp [Q]; field_simp; ring
  have h1 := h.B_le (fun _ => 1)
  have h2 := h.B_le (fun _ => -1)
  have e : (fun _ : Fin n => (((-1 : ℤ)) : ℝ)) = fun _ => -((1 : ℤ) : ℝ) := by funext j; push_cast; rfl
  rw [e, B_neg, Q_neg] at h2
  rw [hB, hQ] at h1 h2
  have e2 : (n : ℝ) / (n + 1) = 2 * (n / (2 * (n + 1))) := by field_simp
  rw [e2] at h1 h2
  rw [abs_le]; constructor <;> linarith

/-- Grid points two steps away from the nearest one are far away. -/
theorem Voronoi.far {d : Fin n → ℝ} (h : Voronoi d) (v : Fin n → ℤ) (hv : (∃ i, 2 ≤ |v i|) ∨ ∃ i j, 2 ≤ v i - v j) :
    ((n + 2) / (n + 1)) ^ 2 / 2 ≤ Q fun i => d i - v i := by
  have h0 : (0 : ℝ) < (n : ℝ) + 1 := by positivity
  have hm := abs_le.mp h.mean
  have key : ∀ x : ℝ, (n + 2) / (n + 1) ≤ |x| → (((n : ℝ) + 2) / (n + 1)) ^ 2 / 2 ≤ x ^ 2 / 2 := by
    intro x hx
    have := pow_le_pow_left₀ (by positivity) hx 2
    rw [sq_abs] at this; linarith
  have e : ((n : ℝ) + 2) / (n + 1) = 2 - 2 * (n / (2 * (n + 1))) := by field_simp; ring
  rcases hv with ⟨i, hi⟩ | ⟨i, j, hij⟩
  · refine (key _ ?_).trans (Q_ge_one _ i)
    have ha := abs_le.mp (h.axis i)
    rw [e]
    have hi' : (2 : ℝ) ≤ |(v i : ℝ)| := by exact_mod_cast hi
    rcases le_abs.mp hi' with hp | hp
    · rw [abs_sub_comm]; refine le_trans ?_ (le_abs_self _); linarith
    · refine le_trans ?_ (le_abs_self _); linarith
  · refine (key _ ?_).trans (Q_ge_two _ j i)
    have ha := abs_le.mp (h.axis i)
    have hb := abs_le.mp (h.axis j)
    rw [e]
    have hi' : (2 : ℝ) ≤ (v i : ℝ) - v j := by exact_mod_cast hij
    refine le_trans ?_ (le_abs_self _); linarith

/-- A step with 0/1 coordinates is no shorter than a step along an axis. -/
theorem Q_bits (c : Fin n → ℤ) (hc : ∀ i, c i = 0 ∨ c i = 1) (hne : c ≠ 0) : (n : ℝ) / (n + 1) ≤ Q fun i => (c i : ℝ) := by
  have h0 : (0 : ℝ) < (n : ℝ) + 1 := by positivity
  have hsq : ∑ i, (c i : ℝ) ^ 2 = ∑ i, (c i : ℝ) := Finset.sum_congr rfl fun i _ => by rcases hc i with h | h <;> simp [h]
  obtain ⟨i, hi⟩ : ∃ i, c i = 1 := by
    by_contra hcon; push Not at hcon
    exact hne (funext fun i => (hc i).resolve_right (hcon i))
  have h1 : (1 : ℝ) ≤ ∑ i, (c i : ℝ) := by
    have := Finset.single_le_sum (f := fun j => (c j : ℝ)) (fun j _ => by rcases hc j with h | h <;> simp [h]) (Finset.mem_univ i)
    simpa [hi] using this
  have h2 : ∑ i, (c i : ℝ) ≤ n := by
    have : ∑ i, (c i : ℝ) ≤ ∑ _i : Fin n, (1 : ℝ) := Finset.sum_le_sum fun j _ => by rcases hc j with h | h <;> simp [h]
    simpa using this
  rw [Q, hsq, div_le_iff₀ h0, sub_mul, div_mul_cancel₀ _ h0.ne']
  nlinarith

/-- On the other side of the nearest grid point everything is far away. -/
theorem Q_opposite (d : Fin n → ℝ) (c : Fin n → ℤ) (hc : ∀ i, c i = 0 ∨ c i = 1) (hne : c ≠ 0) (hB : 0 ≤ B d fun i => (c i : ℝ)) :
    (n : ℝ) / (n + 1) ≤ Q fun i => d i - (-(c i) : ℤ) := by
  have e : (fun i => d i - ((-(c i) : ℤ) : ℝ)) = fun i => d i - (-(c i : ℝ)) := by funext i; push_cast; rfl
  rw [e, Q_sub, B_neg, Q_neg]
  have := Q_bits c hc hne
  have := Q_nonneg d
  linarith

end
end FastNoise.Simplex
