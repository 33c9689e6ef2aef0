import Verif.SimplexLemmas
import Verif.GradientProps
import Verif.RangeCheckLemmas
import Mathlib.Algebra.BigOperators.Group.Finset.Basic
/-!
# From contributions of grid points to the checker

A contribution in skewed coordinates is a `bump`; what the checker bounds, is a sum of bumps.
-/
namespace FastNoise.Simplex
open FastNoise.Hash FastNoise.Num FastNoise.Gradient FastNoise.Lattice FastNoise.RangeCheck

noncomputable section

variable {n : Nat}

/-- The size of the one coordinate of a gradient that is not ±1. -/
def odd (n : Nat) : ℝ := if n = 2 then 1 + √2 else 0

/-- A gradient. -/
def IsGrad (g : Fin n → ℝ) : Prop := ∃ i, |g i| = odd n ∧ ∀ j, j ≠ i → |g j| = 1

/-- What the skewing, and in 3D the mirroring, does to a gradient. -/
def tilt (n : Nat) : ℝ := if n = 3 then -1 / 2 else squash n
@[inherit_doc tilt] def slope (g : Fin n → ℝ) : Fin n → ℝ := fun i => g i + tilt n * ∑ j, g j

/-- The contribution of a grid point at the skewed offset `u` from it. -/
def bump (r2 : ℝ) (u g : Fin n → ℝ) : ℝ := max (r2 - Q u) 0 ^ 4 * ∑ i, slope g i * u i

theorem IsGrad.perm {g : Fin n → ℝ} (h : IsGrad g) (σ : Equiv.Perm (Fin n)) : IsGrad (g ∘ σ) := by
  obtain ⟨i, h1, h2⟩ := h
  refine ⟨σ.symm i, by simpa using h1, fun j hj => h2 _ fun e => hj ?_⟩
  rw [← e]; simp
theorem IsGrad.neg {g : Fin n → ℝ} (h : IsGrad g) : IsGrad (-g) := by
  obtain ⟨i, h1, h2⟩ := h
  exact ⟨i, by simpa using h1, fun j hj => by simpa using h2 j hj⟩

theorem slope_neg (g : Fin n → ℝ) (i : Fin n) : slope (-g) i = -slope g i := by
  simp only [slope, Pi.neg_apply, Finset.sum_neg_distrib]; ring
theorem Q_perm (u : Fin n → ℝ) (σ : Equiv.Perm (Fin n)) : Q (u ∘ σ) = Q u := by
  simp only [Q, Function.comp_apply]
  rw [Equiv.sum_comp σ fun i => u i ^ 2, Equiv.sum_comp σ u]
theorem Q_minus (u : Fin n → ℝ) : Q (-u) = Q u := by simp [Q]
theorem slope_perm (g : Fin n → ℝ) (σ : Equiv.Perm (Fin n)) (i : Fin n) : slope (g ∘ σ) i = slope g (σ i) := by
  simp only [slope, Function.comp_apply]
  rw [Equiv.sum_comp σ g]
theorem bump_perm (r2 : ℝ) (u g : Fin n → ℝ) (σ : Equiv.Perm (Fin n)) : bump r2 (u ∘ σ) (g ∘ σ) = bump r2 u g := by
  simp only [bump, Q_perm, slope_perm, Function.comp_apply]
  rw [Equiv.sum_comp σ fun i => slope g i * u i]
theorem bump_neg (r2 : ℝ) (u g : Fin n → ℝ) : bump r2 u (-g) = -bump r2 u g := by
  simp only [bump, slope_neg, neg_mul, Finset.sum_neg_distrib]; ring
theorem bump_neg_neg (r2 : ℝ) (u g : Fin n → ℝ) : bump r2 (-u) (-g) = bump r2 u g := by
  simp only [bump, slope_neg, Q_minus, Pi.neg_apply, neg_mul_neg]

/-! ## The ramps of the code -/

theorem sum_slope (g u : Fin n → ℝ) (h : n ≠ 3) : ∑ i, g i * unskew u i = ∑ i, slope g i * u i := by
  simp only [slope, unskew, tilt, if_neg h, mul_add, add_mul, Finset.sum_add_distrib]
  congr 1
  rw [← Finset.mul_sum, ← Finset.sum_mul]; ring

theorem sqrt4 : √(4 : ℝ) = 2 := by
  rw [show (4 : ℝ) = 2 ^ 2 by norm_num]; exact Real.sqrt_sq (by norm_num)

theorem sum_slope3 (g u : Fin 3 → ℝ) : ∑ i, g i * mirror (unskew u) i = ∑ i, slope g i * u i := by
  have hs : squash 3 = -1 / 6 := by
    unfold squash
    rw [show ((3 : ℕ) : ℝ) + 1 = 4 by norm_num, sqrt4]; norm_num
  simp only [slope, mirror, unskew, tilt, if_true, hs, Fin.sum_univ_three]
  push_cast
  ring

theorem ramp_slope (hn : n = 2 ∨ n = 3 ∨ n = 4) (ft : Feat) (h : I32) (u : Fin n → ℝ) :
    ∃ g : Fin n → ℝ, IsGrad g ∧ Lattice.gradDot ft h (List.ofFn (rampArg (unskew u))) = ∑ i, slope g i * u i := by
  have s1 : ∀ i b, |sgn i b| = 1 := by intro i b; unfold sgn; split_ifs <;> simp
  rcases hn with rfl | rfl | rfl
  · refine ⟨![(perlin2 (low 3 h)).1, (perlin2 (low 3 h)).2], ?_, ?_⟩
    · have h2 : |1 + √2| = 1 + √2 := abs_of_pos (by positivity)
      have h3 : |-(1 + √2)| = 1 + √2 := by rw [abs_neg, h2]
      generalize low 3 h = k
      have : (k : Nat) < 4 ∨ 4 ≤ (k : Nat) := by omega
      rcases this with hk | hk
      · refine ⟨0, ?_, fun j hj => ?_⟩
        · fin_cases k <;> first | (simp at hk; done) | simp [perlin2, odd, h2, h3, -neg_add_rev]
        · fin_cases j
          · simp at hj
          · fin_cases k <;> first | (simp at hk; done) | simp [perlin2]
      · refine ⟨1, ?_, fun j hj => ?_⟩
        · fin_cases k <;> first | (simp at hk; done) | simp [perlin2, odd, h2, h3, -neg_add_rev]
        · fin_cases j
          · fin_cases k <;> first | (simp at hk; done) | simp [perlin2]
          · simp at hj
    · rw [← sum_slope _ _ (by norm_num)]
      simp only [rampArg, List.ofFn_succ, List.ofFn_zero, Fin.isValue, gradDot, (C26_perlin ft h _ _ 0 0).1, dot2, Fin.sum_univ_two]
      simp
  · refine ⟨![(common3 (low 4 h)).1, (common3 (low 4 h)).2.1, (common3 (low 4 h)).2.2], ?_, ?_⟩
    · generalize low 4 h = k
      fin_cases k <;> simp only [common3, IsGrad, odd] <;>
        first
        | (refine ⟨0, by simp, fun j hj => ?_⟩; fin_cases j <;> simp at hj ⊢; done)
        | (refine ⟨1, by simp, fun j hj => ?_⟩; fin_cases j <;> simp at hj ⊢; done)
        | (refine ⟨2, by simp, fun j hj => ?_⟩; fin_cases j <;> simp at hj ⊢; done)
    · rw [← sum_slope3]
      simp only [rampArg, if_true, List.ofFn_succ, List.ofFn_zero, Fin.isValue, gradDot, (C26_perlin ft h _ _ _ 0).2.1, dot3, Fin.sum_univ_three]
      simp
  · refine ⟨![(perlin4 (low 5 h)).1, (perlin4 (low 5 h)).2.1, (perlin4 (low 5 h)).2.2.1, (perlin4 (low 5 h)).2.2.2], ?_, ?_⟩
    · generalize low 5 h = k
      simp only [perlin4, IsGrad, odd]
      have hk : (k : Nat) / 8 < 4 := by omega
      generalize (⟨(k : Nat) / 8, _⟩ : Fin 4) = a
      fin_cases a
      · refine ⟨0, by simp, fun j hj => ?_⟩; fin_cases j <;> simp [s1] at hj ⊢
      · refine ⟨1, by simp, fun j hj => ?_⟩; fin_cases j <;> simp [s1] at hj ⊢
      · refine ⟨2, by simp, fun j hj => ?_⟩; fin_cases j <;> simp [s1] at hj ⊢
      · refine ⟨3, by simp, fun j hj => ?_⟩; fin_cases j <;> simp [s1] at hj ⊢
    · rw [← sum_slope _ _ (by norm_num)]
      simp only [rampArg, List.ofFn_succ, List.ofFn_zero, Fin.isValue, gradDot, (C26_perlin ft h _ _ _ _).2.2, dot4, Fin.sum_univ_four]
      simp

theorem contribution_bump (hn : n = 2 ∨ n = 3 ∨ n = 4) (ft : Feat) (seed : I32) (r2 : ℝ) (p : Fin n → ℝ) (v : Fin n → ℤ) :
    ∃ g : Fin n → ℝ, IsGrad g ∧ contribution (Lattice.gradDot ft) seed r2 p v = bump r2 (fun i => skewed p i - v i) g := by
  obtain ⟨g, h1, h2⟩ := ramp_slope hn ft (gridHash seed v) fun i => skewed p i - v i
  refine ⟨g, h1, ?_⟩
  rw [contribution_eq, term, pow4_eq, h2, bump]

/-! ## Lists -/

theorem dotR_ofFn : ∀ {n : Nat} (a b : Fin n → ℝ), dotR (List.ofFn a) (List.ofFn b) = ∑ i, a i * b i
  | 0, _, _ => by simp [dotR]
  | n + 1, a, b => by simp only [List.ofFn_succ, dotR, Fin.sum_univ_succ]; rw [dotR_ofFn]
theorem sumR_ofFn : ∀ {n : Nat} (a : Fin n → ℝ), sumR (List.ofFn a) = ∑ i, a i
  | 0, _ => by simp [sumR]
  | n + 1, a => by simp only [List.ofFn_succ, sumR, Fin.sum_univ_succ]; rw [sumR_ofFn]
theorem subR_ofFn : ∀ {n : Nat} (a b : Fin n → ℝ), subR (List.ofFn a) (List.ofFn b) = List.ofFn fun i => a i - b i
  | 0, _, _ => by simp [subR]
  | n + 1, a, b => by simp only [List.ofFn_succ, subR]; rw [subR_ofFn]
theorem zrs_ofFn (a : Fin n → Z) : zrs (List.ofFn a) = List.ofFn fun i => zr (a i) := by simp only [zrs, List.map_ofFn]; rfl

theorem sat_sum {q : Par} {x : List ℝ} : ∀ {M : Nat} (W : Fin M → List Z × List (List Z)) (a : ℝ), Sat q x (List.ofFn W) a →
    ∀ γ : Fin M → List Z, (∀ k, γ k ∈ (W k).2) → a + ∑ k, contrib q (W k).1 (γ k) x ≤ q.B
  | 0, _, a, h, _, _ => by simpa [Sat] using h
  | M + 1, W, a, h, γ, hγ => by
    rw [List.ofFn_succ] at h
    have h1 := sat_sum (fun k => W k.succ) _ (h (γ 0) (hγ 0)) (fun k => γ k.succ) fun k => hγ k.succ
    rw [Fin.sum_univ_succ]
    linarith

/-- Integers of the checker. -/
def zi : ℤ → Z
  | .ofNat k => (k, 0)
  | .negSucc k => (0, k + 1)
theorem zr_zi : ∀ z : ℤ, zr (zi z) = z
  | .ofNat k => by simp [zr, zi]
  | .negSucc k => by simp [zr, zi, Int.negSucc_eq]

/-- The unit of the checker's sums. -/
def unit (q : Par) (N : Nat) : ℝ := N * (q.t * q.m * (N : ℝ) ^ 2) ^ 4

theorem contrib_bump {q : Par} {N : Nat} {R : ℝ} (hm : q.m = n + 1) (hT : (q.T : ℝ) = R * (q.t * q.m * (N : ℝ) ^ 2)) (v : Fin n → ℤ) (γ : Fin n → Z) (α : Fin n → ℝ) :
    contrib q (List.ofFn fun i => zi (v i * N)) (List.ofFn γ) (List.ofFn fun i => N * α i) =
      unit q N * (max (R - Q fun i => α i - v i) 0 ^ 4 * ∑ i, zr (γ i) * (α i - v i)) := by
  have hs : subR (List.ofFn fun i => (N : ℝ) * α i) (zrs (List.ofFn fun i => zi (v i * N))) = List.ofFn fun i => (N : ℝ) * (α i - v i) := by
    rw [zrs_ofFn, subR_ofFn]; congr 1; funext i; rw [zr_zi]; push_cast; ring
  have hl : level q (List.ofFn fun i => (N : ℝ) * (α i - v i)) = (q.t * q.m * (N : ℝ) ^ 2) * (R - Q fun i => α i - v i) := by
    unfold level Q
    rw [dotR_ofFn, sumR_ofFn, hT, ← Finset.mul_sum]
    have : ∑ i, (N : ℝ) * (α i - v i) * (N * (α i - v i)) = N ^ 2 * ∑ i, (α i - v i) ^ 2 := by
      rw [Finset.mul_sum]; exact Finset.sum_congr rfl fun i _ => by ring
    rw [this, hm]
    have : ((n + 1 : ℕ) : ℝ) ≠ 0 := by positivity
    push_cast at this ⊢
    field_simp
  have hp : (0 : ℝ) ≤ q.t * q.m * (N : ℝ) ^ 2 := by positivity
  unfold contrib unit
  rw [hs, hl, zrs_ofFn, dotR_ofFn, show (0 : ℝ) = (q.t * q.m * (N : ℝ) ^ 2) * 0 by ring, ← mul_max_of_nonneg _ _ hp, mul_zero]
  have : ∑ i, zr (γ i) * ((N : ℝ) * (α i - v i)) = N * ∑ i, zr (γ i) * (α i - v i) := by
    rw [Finset.mul_sum]; exact Finset.sum_congr rfl fun i _ => by ring
  rw [this]
  ring

/-- Every gradient in a class `P` has, up to `δ`, its slope times `S` in the table. -/
def CoversOf (P : (Fin n → ℝ) → Prop) (gs : List (List Z)) (S : Nat) (δ : ℝ) : Prop := ∀ g : Fin n → ℝ, P g → ∃ γ : Fin n → Z, List.ofFn γ ∈ gs ∧ ∀ i, |S * slope g i - zr (γ i)| ≤ δ
/-- The gradients of Simplex noise. -/
abbrev Covers (gs : List (List Z)) (n S : Nat) (δ : ℝ) : Prop := CoversOf (n := n) IsGrad gs S δ

theorem bump_table {q : Par} {N S : Nat} {R δ U : ℝ} (hm : q.m = n + 1) (hT : (q.T : ℝ) = R * (q.t * q.m * (N : ℝ) ^ 2)) (hR : 0 ≤ R) {v : Fin n → ℤ} {γ : Fin n → Z} {α g : Fin n → ℝ}
    (hg : ∀ i, |S * slope g i - zr (γ i)| ≤ δ) (hU : ∑ i, |α i - v i| ≤ U) (hδ : 0 ≤ δ) :
    S * unit q N * bump R (fun i => α i - v i) g ≤ contrib q (List.ofFn fun i => zi (v i * N)) (List.ofFn γ) (List.ofFn fun i => N * α i) + unit q N * R ^ 4 * U * δ := by
  rw [contrib_bump hm hT]
  have hQ : 0 ≤ Q fun i => α i - v i := by rw [← unskew_sq]; positivity
  have hf : max (R - Q fun i => α i - v i) 0 ^ 4 ≤ R ^ 4 := by
    refine pow_le_pow_left₀ (le_max_right _ _) (max_le (by linarith) hR) 4
  have hf0 : 0 ≤ max (R - Q fun i => α i - v i) 0 ^ 4 := by positivity
  have hu : 0 ≤ unit q N := by unfold unit; positivity
  have hd : S * ∑ i, slope g i * (α i - v i) ≤ ∑ i, zr (γ i) * (α i - v i) + U * δ := by
    have e : S * ∑ i, slope g i * (α i - v i) - ∑ i, zr (γ i) * (α i - v i) = ∑ i, (S * slope g i - zr (γ i)) * (α i - v i) := by
      rw [Finset.mul_sum, ← Finset.sum_sub_distrib]; exact Finset.sum_congr rfl fun i _ => by ring
    have : ∑ i, (S * slope g i - zr (γ i)) * (α i - v i) ≤ ∑ i, |α i - v i| * δ := by
      refine Finset.sum_le_sum fun i _ => (le_abs_self _).trans ?_
      rw [abs_mul, mul_comm]
      exact mul_le_mul_of_nonneg_left (hg i) (abs_nonneg _)
    rw [← Finset.sum_mul] at this
    have := mul_le_mul_of_nonneg_right hU hδ
    linarith
  have hU0 : 0 ≤ U := (Finset.sum_nonneg fun i _ => abs_nonneg _).trans hU
  unfold bump
  generalize max (R - Q fun i => α i - v i) 0 ^ 4 = f at *
  have h1 := mul_le_mul_of_nonneg_left hd (mul_nonneg hu hf0)
  have h2 := mul_le_mul_of_nonneg_right hf (mul_nonneg hu (mul_nonneg hU0 hδ))
  linarith

theorem sums_le {q : Par} {N S M : Nat} {R δ U : ℝ} {P : (Fin n → ℝ) → Prop} (hm : q.m = n + 1) (hT : (q.T : ℝ) = R * (q.t * q.m * (N : ℝ) ^ 2)) (hR : 0 ≤ R) (hδ : 0 ≤ δ) {gs : List (List Z)} (hc : CoversOf P gs S δ)
    (V : Fin M → Fin n → ℤ) (α : Fin n → ℝ) (hU : ∀ k, ∑ i, |α i - V k i| ≤ U)
    (hs : Sat q (List.ofFn fun i => N * α i) (List.ofFn fun k => (List.ofFn fun i => zi (V k i * N), gs)) 0) (G : Fin M → Fin n → ℝ) (hG : ∀ k, P (G k)) :
    S * unit q N * ∑ k, bump R (fun i => α i - V k i) (G k) ≤ q.B + M * (unit q N * R ^ 4 * U * δ) := by
  choose γ h1 h2 using fun k => hc (G k) (hG k)
  have h3 := sat_sum _ 0 hs (fun k => List.ofFn (γ k)) h1
  have h4 : ∑ k, S * unit q N * bump R (fun i => α i - V k i) (G k) ≤
      ∑ k, (contrib q (List.ofFn fun i => zi (V k i * N)) (List.ofFn (γ k)) (List.ofFn fun i => N * α i) + unit q N * R ^ 4 * U * δ) :=
    Finset.sum_le_sum fun k _ => bump_table hm hT hR (h2 k) (hU k) hδ
  rw [← Finset.mul_sum, Finset.sum_add_distrib, Finset.sum_const, Finset.card_univ, Fintype.card_fin, nsmul_eq_mul] at h4
  linarith

/-! ## The tables -/

def sg (b : Bool) : ℤ := if b then 1 else -1
theorem abs_sg (b : Bool) : |(sg b : ℝ)| = 1 := by cases b <;> simp [sg]

/-- Entry of a table: coordinate `j` of the slope of the gradient with the odd coordinate `i` and signs `b`. -/
def tab {n : Nat} (S P K1 K2 : ℤ) (i : Fin n) (b : Fin n → Bool) (j : Fin n) : ℤ :=
  sg (b j) * (if j = i then P else S) + K1 * ∑ l ∈ Finset.univ.erase i, sg (b l) + K2 * sg (b i)

theorem covers {S : Nat} {P K1 K2 : ℤ} {ε : ℝ} {gs : List (List Z)} (hn : n = 2 ∨ n = 3 ∨ n = 4)
    (h1 : |S * odd n - P| ≤ ε) (h2 : |S * tilt n - K1| ≤ ε) (h3 : |S * (tilt n * odd n) - K2| ≤ ε)
    (hm : ∀ (i : Fin n) (b : Fin n → Bool), List.ofFn (fun j => zi (tab S P K1 K2 i b j)) ∈ gs) : Covers gs n S ((n + 1) * ε) := by
  classical
  rintro g ⟨i, hi, hj⟩
  have hodd : 0 ≤ odd n := by rw [← hi]; exact abs_nonneg _
  have hb : ∃ b : Fin n → Bool, ∀ j, g j = sg (b j) * (if j = i then odd n else 1) := by
    refine ⟨fun j => decide (0 ≤ g j), fun j => ?_⟩
    have ha : |g j| = if j = i then odd n else 1 := by
      split_ifs with e
      · rw [e, hi]
      · exact hj j e
    rw [← ha]
    by_cases h : 0 ≤ g j
    · simp [sg, h, abs_of_nonneg h]
    · simp [sg, h, abs_of_neg (not_le.mp h)]
  obtain ⟨b, hb⟩ := hb
  refine ⟨_, hm i b, fun j => ?_⟩
  rw [zr_zi]
  have hsum : ∑ l, g l = ∑ l ∈ Finset.univ.erase i, (sg (b l) : ℝ) + sg (b i) * odd n := by
    rw [← Finset.sum_erase_add _ _ (Finset.mem_univ i), hb i, if_pos rfl]
    congr 1
    refine Finset.sum_congr rfl fun l hl => ?_
    rw [hb l, if_neg (Finset.ne_of_mem_erase hl), mul_one]
  have e : S * slope g j - (tab S P K1 K2 i b j : ℤ) = sg (b j) * (S * (if j = i then odd n else 1) - (if j = i then (P : ℝ) else S)) +
      (S * tilt n - K1) * ∑ l ∈ Finset.univ.erase i, (sg (b l) : ℝ) + (S * (tilt n * odd n) - K2) * sg (b i) := by
    unfold slope tab
    rw [hsum, hb j]
    push_cast
    split_ifs <;> ring
  have hε : 0 ≤ ε := (abs_nonneg _).trans h1
  have e1 : |(sg (b j) : ℝ) * (S * (if j = i then odd n else 1) - (if j = i then (P : ℝ) else S))| ≤ ε := by
    rw [abs_mul, abs_sg, one_mul]
    split_ifs
    · exact h1
    · simpa using hε
  have e2 : |(S * tilt n - K1) * ∑ l ∈ Finset.univ.erase i, (sg (b l) : ℝ)| ≤ ε * (n - 1) := by
    rw [abs_mul]
    refine mul_le_mul h2 ?_ (abs_nonneg _) hε
    refine (Finset.abs_sum_le_sum_abs _ _).trans (le_of_eq ?_)
    rw [Finset.sum_congr rfl fun l _ => abs_sg (b l), Finset.sum_const, Finset.card_erase_of_mem (Finset.mem_univ i), Finset.card_univ, Fintype.card_fin, nsmul_eq_mul, mul_one,
      Nat.cast_sub (by omega), Nat.cast_one]
  have e3 : |(S * (tilt n * odd n) - K2) * sg (b i)| ≤ ε := by
    rw [abs_mul, abs_sg, mul_one]; exact h3
  rw [e]
  refine (abs_add_le _ _).trans ((add_le_add ((abs_add_le _ _).trans (add_le_add e1 e2)) e3).trans (le_of_eq ?_))
  ring

/-! ## The region -/

theorem inBox_ofFn (c : Nat) : ∀ {n : Nat} (f : Fin n → ℝ), (∀ i, |f i - c| ≤ c) → InBox (List.replicate n c) (List.replicate n c) (List.ofFn f)
  | 0, _, _ => by simp [InBox]
  | n + 1, f, h => by
    rw [List.ofFn_succ, List.replicate_succ]
    exact ⟨h 0, inBox_ofFn c _ fun i => h i.succ⟩

theorem down_ofFn : ∀ {n : Nat} (f : Fin n → ℝ), (∀ i j, i ≤ j → f j ≤ f i) → Down (List.ofFn f)
  | 0, _, _ => by simp [Down]
  | 1, _, _ => by simp [Down]
  | n + 2, f, h => by
    have := down_ofFn (fun i : Fin (n + 1) => f i.succ) fun i j hij => h _ _ (Fin.succ_le_succ_iff.mpr hij)
    rw [List.ofFn_succ] at this ⊢
    rw [List.ofFn_succ]
    exact ⟨h _ _ (Fin.zero_le _), this⟩

/-- Sorted downwards and in the unit cube. -/
def Sorted (α : Fin n → ℝ) : Prop := (∀ i, 0 ≤ α i ∧ α i ≤ 1) ∧ ∀ i j, i ≤ j → α j ≤ α i

/-- The bound on the half region, by the checker. -/
theorem half_le {q : Par} {N S M : Nat} {R δ U peak : ℝ} {P : (Fin n → ℝ) → Prop} (hm : q.m = n + 1) (hT : (q.T : ℝ) = R * (q.t * q.m * (N : ℝ) ^ 2)) (hR : 0 ≤ R) (hδ : 0 ≤ δ) {gs : List (List Z)} (hc : CoversOf P gs S δ)
    (V : Fin M → Fin n → ℤ) (st : St) (hst : st = List.ofFn fun k => (List.ofFn fun i => zi (V k i * N), gs)) (hgs : ∀ g ∈ gs, g.length = n)
    (c : Nat) (hN : N = 2 * c) (hH : q.H = n * N) (t : Tree) (ht : check q t (List.replicate n c) (List.replicate n c) st = true)
    (hU : ∀ (α : Fin n → ℝ), Sorted α → ∀ k, ∑ i, |α i - V k i| ≤ U) (hpos : 0 < S * unit q N) (hB : q.B + M * (unit q N * R ^ 4 * U * δ) ≤ peak * (S * unit q N))
    (α : Fin n → ℝ) (hα : Sorted α) (hh : 2 * ∑ i, α i ≤ n) (G : Fin M → Fin n → ℝ) (hG : ∀ k, P (G k)) :
    ∑ k, bump R (fun i => α i - V k i) (G k) ≤ peak := by
  have hw : Wf (List.replicate n c).length st := by
    rw [hst, List.length_replicate]
    intro p hp
    rw [List.mem_ofFn] at hp
    obtain ⟨k, rfl⟩ := hp
    exact ⟨by simp, hgs⟩
  have hs := check_sound t _ _ st hw (by simp [hm]) ht (List.ofFn fun i => N * α i)
    (inBox_ofFn c _ fun i => by
      have := hα.1 i
      have hc0 : (0 : ℝ) ≤ c := by positivity
      rw [hN]; push_cast
      rw [abs_le]; constructor <;> nlinarith)
    (down_ofFn _ fun i j hij => mul_le_mul_of_nonneg_left (hα.2 i j hij) (by positivity))
    (by rw [sumR_ofFn, hH, ← Finset.mul_sum]; push_cast; nlinarith [Nat.cast_nonneg (α := ℝ) N])
  rw [hst] at hs
  have := sums_le hm hT hR hδ hc V α (hU α hα) hs G hG
  rw [mul_comm] at this
  exact le_of_mul_le_mul_right (this.trans hB) hpos

theorem sorted_flip {α : Fin n → ℝ} (h : Sorted α) : Sorted fun i => 1 - α i.rev :=
  ⟨fun i => ⟨by linarith [(h.1 i.rev).2], by linarith [(h.1 i.rev).1]⟩, fun i j hij => by
    have := h.2 j.rev i.rev (Fin.rev_le_rev.mpr hij); linarith⟩

/-- A class of gradients closed under permutations of the axes and under negation. -/
def Symmetric (P : (Fin n → ℝ) → Prop) : Prop := (∀ g (σ : Equiv.Perm (Fin n)), P g → P (g ∘ σ)) ∧ ∀ g, P g → P (-g)
theorem isGrad_symmetric : Symmetric (n := n) IsGrad := ⟨fun _ σ h => h.perm σ, fun _ h => h.neg⟩

/-- The whole region, if the grid points are symmetric. -/
theorem whole_le {M : Nat} {R peak : ℝ} {P : (Fin n → ℝ) → Prop} (hP : Symmetric P) (V : Fin M → Fin n → ℤ) (τ : Equiv.Perm (Fin M)) (hτ : ∀ k i, V (τ k) i = 1 - V k i.rev)
    (hh : ∀ α : Fin n → ℝ, Sorted α → 2 * ∑ i, α i ≤ n → ∀ G : Fin M → Fin n → ℝ, (∀ k, P (G k)) → ∑ k, bump R (fun i => α i - V k i) (G k) ≤ peak)
    (α : Fin n → ℝ) (hα : Sorted α) (G : Fin M → Fin n → ℝ) (hG : ∀ k, P (G k)) : ∑ k, bump R (fun i => α i - V k i) (G k) ≤ peak := by
  rcases le_total (2 * ∑ i, α i) n with h | h
  · exact hh α hα h G hG
  have key := hh _ (sorted_flip hα) (by
    have e : ∑ i : Fin n, α i.rev = ∑ i, α i := Equiv.sum_comp Fin.revPerm α
    rw [Finset.sum_sub_distrib, e]
    simp; linarith) (fun k => -(G (τ.symm k) ∘ Fin.revPerm)) fun k => hP.2 _ (hP.1 _ _ (hG _))
  rw [← Equiv.sum_comp τ] at key
  refine le_trans (le_of_eq (Finset.sum_congr rfl fun k _ => ?_)) key
  rw [τ.symm_apply_apply, ← bump_perm _ _ _ Fin.revPerm, ← bump_neg_neg]
  congr 1
  funext i
  simp only [Pi.neg_apply, Function.comp_apply, Fin.revPerm_apply, hτ]
  push_cast; ring

end
end FastNoise.Simplex
