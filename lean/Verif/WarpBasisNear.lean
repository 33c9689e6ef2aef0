import Verif.WarpBasis
/-! # Lemmas on the 4D matrices: which of the bases are orthogonal -/
namespace FastNoise.WarpGrad
open FastNoise.Hash FastNoise.Gradient Matrix

noncomputable section

theorem sqrt2_bounds : (1.41421356237309504 : ℝ) ≤ √2 ∧ √2 ≤ 1.41421356237309505 := by
  constructor
  · apply Real.le_sqrt_of_sq_le; norm_num
  · rw [Real.sqrt_le_left (by norm_num)]; norm_num

theorem sqrt5_bounds : (2.2360679774997896 : ℝ) ≤ √5 ∧ √5 ≤ 2.2360679774997897 := by
  constructor
  · apply Real.le_sqrt_of_sq_le; norm_num
  · rw [Real.sqrt_le_left (by norm_num)]; norm_num

theorem gold_sq : goldSkew * goldSkew = 1 / 4 - goldSkew / 2 := by
  have h5 : √5 * √5 = (5 : ℝ) := Real.mul_self_sqrt (by norm_num)
  have hp : √5 + 1 ≠ 0 := by positivity
  unfold goldSkew
  field_simp
  nlinarith

theorem gold_lin : goldSkew = (√5 - 1) / 4 := by
  have h5 : √5 * √5 = (5 : ℝ) := Real.mul_self_sqrt (by norm_num)
  have hp : √5 + 1 ≠ 0 := by positivity
  unfold goldSkew
  field_simp
  nlinarith

theorem gold_bounds : (0.3090169943749474 : ℝ) ≤ goldSkew ∧ goldSkew ≤ 0.30901699437494743 := by
  obtain ⟨a, b⟩ := sqrt5_bounds
  rw [gold_lin]
  constructor <;> linarith

theorem sqrt2_gold_bounds : (0.437016024448820 : ℝ) ≤ √2 * goldSkew ∧ √2 * goldSkew ≤ 0.437016024448822 := by
  obtain ⟨a, b⟩ := sqrt2_bounds
  obtain ⟨c, d⟩ := gold_bounds
  constructor
  · calc (0.437016024448820 : ℝ) ≤ 1.41421356237309504 * 0.3090169943749474 := by norm_num
      _ ≤ _ := by gcongr
  · calc √2 * goldSkew ≤ 1.41421356237309505 * 0.30901699437494743 := by gcongr
      _ ≤ _ := by norm_num

/-- Permuting the columns does not change products of rows. -/
theorem near_perm {M N : Matrix (Fin 4) (Fin 4) ℝ} (σ : Fin 4 → Fin 4) (hσ : Function.Bijective σ) (h : ∀ r c, M r c = N r (σ c)) (hn : NearlyOrthogonal N) : NearlyOrthogonal M := by
  intro i j
  have : M i ⬝ᵥ M j = N i ⬝ᵥ N j := by
    unfold dotProduct
    simp only [h]
    exact Function.Bijective.sum_comp hσ fun c => N i c * N j c
  rw [this]; exact hn i j

/-- Distinguished columns first. -/
def pairPerm (p n : Fin 4) (c : Fin 4) : Fin 4 := if c = p then 0 else if c = n then 1 else Fin.ofNat 4 (2 + rank (fun c => c = p || c = n) c)
@[inherit_doc pairPerm] def singlePerm (j : Fin 4) (c : Fin 4) : Fin 4 := if c = j then 0 else Fin.ofNat 4 (1 + rank (fun c => decide (c = j)) c)

theorem pairPerm_inj (p n : Fin 4) (h : p ≠ n) : Function.Bijective (pairPerm p n) := by
  rw [← Finite.injective_iff_bijective]
  revert h; revert p n; unfold Function.Injective; decide

theorem singlePerm_inj (j : Fin 4) : Function.Bijective (singlePerm j) := by
  rw [← Finite.injective_iff_bijective]
  revert j; unfold Function.Injective; decide

theorem pair_rank : ∀ p n c : Fin 4, p ≠ n → c ≠ p → c ≠ n →
    (pairPerm p n c ≠ 0 ∧ pairPerm p n c ≠ 1) ∧ rank (fun c => c = 0 || c = 1) (pairPerm p n c) = rank (fun c => c = p || c = n) c := by decide
theorem single_rank : ∀ j c : Fin 4, c ≠ j →
    singlePerm j c ≠ 0 ∧ rank (fun c => decide (c = 0)) (singlePerm j c) = rank (fun c => decide (c = j)) c := by decide

theorem pairBasis_perm (p n : Fin 4) (b : ℝ) (h : p ≠ n) (r c : Fin 4) : pairBasis p n b r c = pairBasis 0 1 b r (pairPerm p n c) := by
  by_cases hp : c = p
  · subst hp
    have : pairPerm c n c = 0 := by simp [pairPerm]
    rw [this]
    fin_cases r <;> simp [pairBasis]
  by_cases hn : c = n
  · subst hn
    have : pairPerm p c c = 1 := by simp [pairPerm, hp]
    rw [this]
    fin_cases r <;> simp [pairBasis, hp]
  obtain ⟨⟨h0, h1⟩, hr⟩ := pair_rank p n c h hp hn
  fin_cases r <;> simp [pairBasis, diagonal, hp, hn, h0, h1] <;> rw [hr]

theorem singleBasis_perm (j : Fin 4) (e b : ℝ) (r c : Fin 4) : singleBasis j e b r c = singleBasis 0 e b r (singlePerm j c) := by
  by_cases hp : c = j
  · subst hp
    have : singlePerm c c = 0 := by simp [singlePerm]
    rw [this]
    fin_cases r <;> simp [singleBasis]
  obtain ⟨h0, hr⟩ := single_rank j c hp
  fin_cases r <;> simp [singleBasis, diagonal, hp, h0] <;> rw [hr]

theorem near_of (M : Matrix (Fin 4) (Fin 4) ℝ) (h00 : |M 0 ⬝ᵥ M 0 - 2| ≤ 1e-12) (h11 : |M 1 ⬝ᵥ M 1 - 2| ≤ 1e-12) (h22 : |M 2 ⬝ᵥ M 2 - 2| ≤ 1e-12) (h33 : |M 3 ⬝ᵥ M 3 - 2| ≤ 1e-12)
    (h01 : |M 0 ⬝ᵥ M 1| ≤ 1e-12) (h02 : |M 0 ⬝ᵥ M 2| ≤ 1e-12) (h03 : |M 0 ⬝ᵥ M 3| ≤ 1e-12) (h12 : |M 1 ⬝ᵥ M 2| ≤ 1e-12) (h13 : |M 1 ⬝ᵥ M 3| ≤ 1e-12) (h23 : |M 2 ⬝ᵥ M 3| ≤ 1e-12) :
    NearlyOrthogonal M := by
  have key : ∀ i j, i ≠ j → |M i ⬝ᵥ M j| ≤ 1e-12 → |M i ⬝ᵥ M j - if i = j then 2 else 0| ≤ 1e-12 := by
    intro i j hij h; rw [if_neg hij, sub_zero]; exact h
  have key' : ∀ i j, i ≠ j → |M j ⬝ᵥ M i| ≤ 1e-12 → |M i ⬝ᵥ M j - if i = j then 2 else 0| ≤ 1e-12 := by
    intro i j hij h; rw [dotProduct_comm]; rw [if_neg hij, sub_zero]; exact h
  intro i j
  fin_cases i <;> fin_cases j
  · exact h00
  · exact key 0 1 (by decide) h01
  · exact key 0 2 (by decide) h02
  · exact key 0 3 (by decide) h03
  · exact key' 1 0 (by decide) h01
  · exact h11
  · exact key 1 2 (by decide) h12
  · exact key 1 3 (by decide) h13
  · exact key' 2 0 (by decide) h02
  · exact key' 2 1 (by decide) h12
  · exact h22
  · exact key 2 3 (by decide) h23
  · exact key' 3 0 (by decide) h03
  · exact key' 3 1 (by decide) h13
  · exact key' 3 2 (by decide) h23
  · exact h33

theorem dot4 (x y : Fin 4 → ℝ) : x ⬝ᵥ y = x 0 * y 0 + x 1 * y 1 + x 2 * y 2 + x 3 * y 3 := by
  simp [dotProduct, Fin.sum_univ_four]

theorem pairRows (b : ℝ) : pairBasis 0 1 b = of
    ![![-0.375999676691291 + 1, -0.375999676691291 + b, 0.222726847849776 - √2, 0.222726847849776],
      ![-0.375999676691291 + 1, -0.375999676691291 + b, 0.222726847849776, 0.222726847849776 - √2],
      ![-0.375999676691291 + 0.437016024448821 + 1, -0.375999676691291 + 0.437016024448821 + b, 0.222726847849776 + 0.437016024448821, 0.222726847849776 + 0.437016024448821],
      ![-goldSkew - 1 + 1, -goldSkew - 1 + b, goldSkew, goldSkew]] := by
  ext i j
  fin_cases i <;> fin_cases j <;> simp [pairBasis, diagonal, rank, List.finRange, sub_eq_add_neg]

theorem singleRows (e b : ℝ) : singleBasis 0 e b = of
    ![![-0.5 + e * goldSkew + b, 0.098726524541067 + e * goldSkew - √2, 0.098726524541067 + e * goldSkew, 0.098726524541067 + e * goldSkew],
      ![-0.5 + e * goldSkew + b, 0.098726524541067 + e * goldSkew, 0.098726524541067 + e * goldSkew - √2, 0.098726524541067 + e * goldSkew],
      ![-0.5 + e * goldSkew + b, 0.098726524541067 + e * goldSkew, 0.098726524541067 + e * goldSkew, 0.098726524541067 + e * goldSkew - √2],
      ![-goldSkew - 0.809016994374947 + e * goldSkew + b, goldSkew + 0.190983005625053 + e * goldSkew, goldSkew + 0.190983005625053 + e * goldSkew, goldSkew + 0.190983005625053 + e * goldSkew]] := by
  ext i j
  fin_cases i <;> fin_cases j <;> simp [singleBasis, diagonal, rank, List.finRange, sub_eq_add_neg] <;> norm_num <;> ring

theorem near_pair : NearlyOrthogonal (pairBasis 0 1 0) := by
  have s2 : √2 * √2 = (2 : ℝ) := Real.mul_self_sqrt (by norm_num)
  have t2 := gold_sq
  have hs := sqrt2_bounds
  have ht := gold_bounds
  have hst := sqrt2_gold_bounds
  rw [pairRows]
  generalize √2 = s at *
  generalize goldSkew = t at *
  apply near_of <;>
  · rw [dot4, abs_le]
    simp only [of_apply, cons_val]
    constructor <;> linarith

theorem near_single (e : ℝ) (he : e = 0 ∨ e = 1) : NearlyOrthogonal (singleBasis 0 e e) := by
  have s2 : √2 * √2 = (2 : ℝ) := Real.mul_self_sqrt (by norm_num)
  have t2 := gold_sq
  have hs := sqrt2_bounds
  have ht := gold_bounds
  have hst := sqrt2_gold_bounds
  rw [singleRows]
  generalize √2 = s at *
  generalize goldSkew = t at *
  rcases he with rfl | rfl <;> apply near_of <;>
  · rw [dot4, abs_le]
    simp only [of_apply, cons_val]
    constructor <;> linarith

theorem pairCols_ne (k : Fin 20) (h : 4 ≤ k ∧ k < 16) : (pairCols k).1 ≠ (pairCols k).2 := by revert k; decide

theorem near_pairs (k : Fin 20) (h : 4 ≤ k ∧ k < 16) : NearlyOrthogonal (pairBasis (pairCols k).1 (pairCols k).2 0) :=
  near_perm _ (pairPerm_inj _ _ (pairCols_ne k h)) (pairBasis_perm _ _ 0 (pairCols_ne k h)) near_pair

theorem near_singles (j : Fin 4) (e : ℝ) (he : e = 0 ∨ e = 1) : NearlyOrthogonal (singleBasis j e e) :=
  near_perm _ (singlePerm_inj j) (singleBasis_perm j e e) (near_single e he)

/-- All AVX512 bases are orthogonal. -/
theorem near512 (k : Fin 20) : NearlyOrthogonal (basis512 k) := by
  unfold basis512
  split_ifs with h1 h2
  · exact near_singles _ 0 (.inl rfl)
  · exact near_pairs k ⟨by omega, h2⟩
  · exact near_singles _ 1 (.inr rfl)

/-- Row products are the same before permutation of the columns. -/
theorem dot_perm {M N : Matrix (Fin 4) (Fin 4) ℝ} (σ : Fin 4 → Fin 4) (hσ : Function.Bijective σ) (h : ∀ r c, M r c = N r (σ c)) (i j : Fin 4) : M i ⬝ᵥ M j = N i ⬝ᵥ N j := by
  unfold dotProduct
  simp only [h]
  exact Function.Bijective.sum_comp hσ fun c => N i c * N j c

/-- AVX2: the first and the last row of a pair basis are not orthogonal. -/
theorem pair_bad (p n : Fin 4) (h : p ≠ n) : pairBasis p n 1 2 ⬝ᵥ pairBasis p n 1 2 ≥ 3 := by
  rw [dot_perm _ (pairPerm_inj p n h) (pairBasis_perm p n 1 h), pairRows, dot4]
  simp only [of_apply, cons_val]
  norm_num

/-- Neither AVX512 nor AVX2: a single basis has a row of the wrong length. -/
theorem single_bad (j : Fin 4) : singleBasis j 1 0 3 ⬝ᵥ singleBasis j 1 0 3 ≥ 2.5 := by
  have t2 := gold_sq
  have ht := gold_bounds
  rw [dot_perm _ (singlePerm_inj j) (singleBasis_perm j 1 0), singleRows, dot4]
  simp only [of_apply, cons_val]
  generalize goldSkew = t at *
  linarith

theorem near256_iff (k : Fin 20) : NearlyOrthogonal (basis256 k) ↔ ¬ (4 ≤ k ∧ k < 16) := by
  unfold basis256
  split_ifs with h
  · refine ⟨fun hn => ?_, fun hn => absurd h hn⟩
    have h1 := hn 2 2
    have h2 := pair_bad _ _ (pairCols_ne k h)
    rw [if_pos rfl, abs_le] at h1
    norm_num at h1
    linarith [h1.2]
  · exact ⟨fun _ => h, fun _ => near_singles _ 1 (.inr rfl)⟩

theorem nearGeneric_iff (k : Fin 20) : NearlyOrthogonal (basisGeneric k) ↔ (4 ≤ k ∧ k < 16) := by
  unfold basisGeneric
  split_ifs with h
  · exact ⟨fun _ => h, fun _ => near_pairs k h⟩
  · refine ⟨fun hn => ?_, fun hn => absurd hn h⟩
    have h1 := hn 3 3
    have h2 := single_bad (singleCol k)
    rw [if_pos rfl, abs_le] at h1
    norm_num at h1
    linarith [h1.2]

end
end FastNoise.WarpGrad
