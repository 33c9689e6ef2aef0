import Verif.SimplexMore
import Verif.SimplexRaw
import Mathlib.Analysis.Calculus.MeanValue
import Mathlib.Analysis.Calculus.Deriv.Pow
import Mathlib.Analysis.Calculus.Deriv.Mul
/-! # Simplex noise changes at a bounded rate -/
namespace FastNoise.Simplex
open FastNoise.Hash FastNoise.Num FastNoise.Gradient

noncomputable section

variable {n : Nat}

/-! ## One grid point -/

theorem hasDerivAt_relu4 (x : ℝ) : HasDerivAt (fun x : ℝ => max x 0 ^ 4) (4 * max x 0 ^ 3) x := by
  rcases lt_trichotomy x 0 with h | h | h
  · rw [max_eq_right h.le]
    refine (hasDerivAt_const x (0 : ℝ)).congr_of_eventuallyEq ?_ |>.congr_deriv (by norm_num)
    filter_upwards [Iio_mem_nhds h] with y hy
    rw [max_eq_right (le_of_lt hy)]; norm_num
  · subst h
    rw [max_self]
    have : HasDerivAt (fun x : ℝ => x ^ 4) 0 0 := by simpa using hasDerivAt_pow 4 (0 : ℝ)
    rw [show (4 : ℝ) * 0 ^ 3 = 0 by norm_num]
    rw [hasDerivAt_iff_isLittleO_nhds_zero] at this ⊢
    refine Asymptotics.IsBigO.trans_isLittleO ?_ this
    refine Asymptotics.IsBigO.of_bound 1 (Filter.Eventually.of_forall fun y => ?_)
    simp only [zero_add, smul_zero, sub_zero, max_self, one_mul, Real.norm_eq_abs]
    norm_num
    rcases le_total y 0 with hy | hy
    · rw [max_eq_right hy]; simp
    · rw [max_eq_left hy, abs_of_nonneg hy]
  · rw [max_eq_left h.le]
    have : HasDerivAt (fun x : ℝ => x ^ 4) (4 * x ^ 3) x := by simpa using hasDerivAt_pow 4 x
    refine this.congr_of_eventuallyEq ?_
    filter_upwards [Ioi_mem_nhds h] with y hy
    rw [max_eq_left (le_of_lt hy)]

/-- Squared length. -/
def normSq (u : Fin n → ℝ) : ℝ := ∑ i, u i ^ 2

theorem normSq_nonneg (u : Fin n → ℝ) : 0 ≤ normSq u := Finset.sum_nonneg fun _ _ => sq_nonneg _

theorem dot_le (u w : Fin n → ℝ) : |∑ i, u i * w i| ≤ √(normSq u) * √(normSq w) := by
  rw [← Real.sqrt_mul (normSq_nonneg u)]
  exact Real.abs_le_sqrt (Finset.sum_mul_sq_le_sq_mul_sq _ _ _)

/-- A ramp times its falloff, along a line, and its rate of change. -/
theorem bump_deriv (r : ℝ) (g d e : Fin n → ℝ) (τ : ℝ) :
    HasDerivAt (fun τ : ℝ => max (r - normSq fun i => d i + τ * e i) 0 ^ 4 * ∑ i, g i * (d i + τ * e i))
      (4 * max (r - normSq fun i => d i + τ * e i) 0 ^ 3 * (-2 * ∑ i, (d i + τ * e i) * e i) * (∑ i, g i * (d i + τ * e i)) +
        max (r - normSq fun i => d i + τ * e i) 0 ^ 4 * ∑ i, g i * e i) τ := by
  have lin : ∀ i, HasDerivAt (fun τ : ℝ => d i + τ * e i) (e i) τ := fun i => by
    simpa using ((hasDerivAt_id τ).mul_const (e i)).const_add (d i)
  have h1 : HasDerivAt (fun τ : ℝ => r - normSq fun i => d i + τ * e i) (-2 * ∑ i, (d i + τ * e i) * e i) τ := by
    have : HasDerivAt (fun τ : ℝ => ∑ i, (d i + τ * e i) ^ 2) (∑ i, 2 * (d i + τ * e i) * e i) τ := by
      refine HasDerivAt.fun_sum fun i _ => ?_
      have := (lin i).fun_pow 2
      simpa using this
    refine (this.const_sub r).congr_deriv ?_
    rw [Finset.mul_sum, ← Finset.sum_neg_distrib]
    exact Finset.sum_congr rfl fun i _ => by ring
  have h2 : HasDerivAt (fun τ : ℝ => ∑ i, g i * (d i + τ * e i)) (∑ i, g i * e i) τ :=
    HasDerivAt.fun_sum fun i _ => (lin i).const_mul (g i)
  exact ((hasDerivAt_relu4 _).comp τ h1).mul h2

/-- The greatest rate of change of the falloff times distance. -/
theorem quartic_le (r t : ℝ) : 8 * r * t ^ 3 - 7 * t ^ 4 ≤ 432 / 343 * r ^ 4 := by
  have : 432 / 343 * r ^ 4 - (8 * r * t ^ 3 - 7 * t ^ 4) = 7 * (t - 6 / 7 * r) ^ 2 * ((t + 2 / 7 * r) ^ 2 + 8 / 49 * r ^ 2) := by ring
  have h : 0 ≤ 7 * (t - 6 / 7 * r) ^ 2 * ((t + 2 / 7 * r) ^ 2 + 8 / 49 * r ^ 2) := by positivity
  linarith

theorem bump_rate {r Γ : ℝ} (g u e : Fin n → ℝ) (hg : √(normSq g) ≤ Γ) :
    |4 * max (r - normSq u) 0 ^ 3 * (-2 * ∑ i, u i * e i) * (∑ i, g i * u i) + max (r - normSq u) 0 ^ 4 * ∑ i, g i * e i| ≤ 432 / 343 * r ^ 4 * Γ * √(normSq e) := by
  have hΓ : 0 ≤ Γ := (Real.sqrt_nonneg _).trans hg
  have hE : 0 ≤ √(normSq e) := Real.sqrt_nonneg _
  rcases le_total (r - normSq u) 0 with h | h
  · rw [max_eq_right h]; simp only [ne_eq, OfNat.ofNat_ne_zero, not_false_eq_true, zero_pow, mul_zero, zero_mul, add_zero, abs_zero]; positivity
  · rw [max_eq_left h]
    have hN : √(normSq u) * √(normSq u) = normSq u := Real.mul_self_sqrt (normSq_nonneg u)
    obtain ⟨t, ht⟩ : ∃ t, r - normSq u = t := ⟨_, rfl⟩
    rw [ht] at h ⊢
    have a := dot_le u e
    have b := dot_le g u
    have c := dot_le g e
    have b' : |∑ i, g i * u i| ≤ Γ * √(normSq u) := b.trans (mul_le_mul_of_nonneg_right hg (Real.sqrt_nonneg _))
    have c' : |∑ i, g i * e i| ≤ Γ * √(normSq e) := c.trans (mul_le_mul_of_nonneg_right hg hE)
    have ab : |(∑ i, u i * e i) * ∑ i, g i * u i| ≤ normSq u * Γ * √(normSq e) := by
      rw [abs_mul]
      refine (mul_le_mul a b' (abs_nonneg _) (by positivity)).trans (le_of_eq ?_)
      linear_combination (Γ * √(normSq e)) * hN
    have q := mul_le_mul_of_nonneg_right (quartic_le r t) (mul_nonneg hΓ hE)
    have hu : normSq u = r - t := by linarith
    rw [hu] at ab
    calc |4 * t ^ 3 * (-2 * ∑ i, u i * e i) * (∑ i, g i * u i) + t ^ 4 * ∑ i, g i * e i|
        = |-(8 * t ^ 3) * ((∑ i, u i * e i) * ∑ i, g i * u i) + t ^ 4 * ∑ i, g i * e i| := by congr 1; ring
      _ ≤ 8 * t ^ 3 * |(∑ i, u i * e i) * ∑ i, g i * u i| + t ^ 4 * |∑ i, g i * e i| := by
        refine (abs_add_le _ _).trans (le_of_eq ?_)
        rw [abs_mul, abs_mul (t ^ 4), abs_neg, abs_of_nonneg (by positivity : 0 ≤ 8 * t ^ 3), abs_of_nonneg (by positivity : 0 ≤ t ^ 4)]
      _ ≤ 8 * t ^ 3 * ((r - t) * Γ * √(normSq e)) + t ^ 4 * (Γ * √(normSq e)) :=
        add_le_add (mul_le_mul_of_nonneg_left ab (by positivity)) (mul_le_mul_of_nonneg_left c' (by positivity))
      _ = (8 * r * t ^ 3 - 7 * t ^ 4) * (Γ * √(normSq e)) := by ring
      _ ≤ 432 / 343 * r ^ 4 * (Γ * √(normSq e)) := q
      _ = _ := by ring

/-! ## All grid points -/

/-- The ramps are linear, of slope at most `Γ`. -/
def RampSlope (n : Nat) (ramp : Ramp) (Γ : ℝ) : Prop := ∀ h, ∃ g : Fin n → ℝ, √(normSq g) ≤ Γ ∧ ∀ u : Fin n → ℝ, ramp h (List.ofFn (rampArg u)) = ∑ i, g i * u i

/-- Everywhere at most `K` grid points are in reach. -/
def Reach (n : Nat) (r : ℝ) (K : Nat) : Prop := ∀ p : Fin n → ℝ, ∃ s : Finset (Fin n → ℤ), s.card ≤ K ∧ ∀ v, v ∉ s → r ≤ distSq p (gridPoint v)

theorem gridNoise_lipschitz {r Γ : ℝ} {K : Nat} (r0 : 0 ≤ r) (ramp : Ramp) (hΓ : RampSlope n ramp Γ) (hK : Reach n r K) (seed : I32) (p q : Fin n → ℝ) :
    |gridNoise ramp seed r q - gridNoise ramp seed r p| ≤ K * (432 / 343 * r ^ 4 * Γ) * √(distSq q p) := by
  classical
  obtain ⟨sp, -, hsp⟩ := hK p
  obtain ⟨sq, -, hsq⟩ := hK q
  have far : ∀ (x : Fin n → ℝ) (s : Finset (Fin n → ℤ)), (∀ v, v ∉ s → r ≤ distSq x (gridPoint v)) → gridNoise ramp seed r x = ∑ v ∈ s, contribution ramp seed r x v :=
    fun x s h => gridNoise_eq ramp seed r x s fun v hv => by rw [← distSq_gridPoint]; exact h v hv
  rw [far p (sp ∪ sq) fun v hv => hsp v fun h => hv (Finset.mem_union_left _ h), far q (sp ∪ sq) fun v hv => hsq v fun h => hv (Finset.mem_union_right _ h)]
  obtain ⟨s, hs⟩ : ∃ s, sp ∪ sq = s := ⟨_, rfl⟩
  rw [hs]
  choose g hg hgu using fun v : Fin n → ℤ => hΓ (gridHash seed v)
  obtain ⟨e, he⟩ : ∃ e : Fin n → ℝ, e = fun i => q i - p i := ⟨_, rfl⟩
  have hE : √(distSq q p) = √(normSq e) := by rw [he]; rfl
  have val : ∀ (v : Fin n → ℤ) (τ : ℝ), contribution ramp seed r (fun i => p i + τ * e i) v =
      max (r - normSq fun i => (p i - gridPoint v i) + τ * e i) 0 ^ 4 * ∑ i, g v i * ((p i - gridPoint v i) + τ * e i) := by
    intro v τ
    unfold contribution distSq normSq
    rw [hgu]
    congr 1
    · congr 3; refine Finset.sum_congr rfl fun i _ => by ring
    · refine Finset.sum_congr rfl fun i _ => by ring
  have hd : ∀ τ : ℝ, HasDerivAt (fun τ : ℝ => ∑ v ∈ s, contribution ramp seed r (fun i => p i + τ * e i) v) _ τ := fun τ => by
    simp only [val]
    exact HasDerivAt.fun_sum fun v _ => bump_deriv r (g v) (fun i => p i - gridPoint v i) e τ
  have key := Convex.norm_image_sub_le_of_norm_hasDerivWithin_le (s := Set.univ) (C := K * (432 / 343 * r ^ 4 * Γ) * √(normSq e)) (x := (0 : ℝ)) (y := 1)
    (fun τ _ => (hd τ).hasDerivWithinAt) ?_ convex_univ (Set.mem_univ _) (Set.mem_univ _)
  · simp only [zero_mul, add_zero, one_mul, sub_zero, norm_one, mul_one, Real.norm_eq_abs] at key
    rw [hE]
    have e1 : (fun i => p i + e i) = q := by funext i; rw [he]; ring
    rw [e1] at key
    exact key
  · intro τ _
    obtain ⟨a, ha, hfar⟩ := hK fun i => p i + τ * e i
    have B0 : 0 ≤ 432 / 343 * r ^ 4 * Γ * √(normSq e) := by
      have : 0 ≤ Γ := (Real.sqrt_nonneg _).trans (hg 0)
      positivity
    refine (norm_sum_le _ _).trans ?_
    have zero : ∀ v, v ∉ a → max (r - normSq fun i => (p i - gridPoint v i) + τ * e i) 0 = 0 := by
      intro v hv
      refine max_eq_right (sub_nonpos.mpr ((hfar v hv).trans (le_of_eq ?_)))
      unfold distSq normSq; refine Finset.sum_congr rfl fun i _ => by ring
    rw [← Finset.sum_filter_add_sum_filter_not s (· ∈ a)]
    rw [Finset.sum_eq_zero (s := s.filter (· ∉ a)) fun v hv => by rw [zero v (Finset.mem_filter.mp hv).2]; norm_num, add_zero]
    refine (Finset.sum_le_card_nsmul _ _ _ fun v _ => bump_rate (g v) (fun i => (p i - gridPoint v i) + τ * e i) e (hg v)).trans ?_
    rw [nsmul_eq_mul, mul_assoc (K : ℝ)]
    refine mul_le_mul_of_nonneg_right ?_ B0
    have : (s.filter (· ∈ a)).card ≤ a.card := Finset.card_le_card fun v hv => (Finset.mem_filter.mp hv).2
    exact_mod_cast this.trans ha

/-! ## The ramps and radii of the code -/

theorem slope2 (ft : Feat) : RampSlope 2 (Lattice.gradDot ft) 2.6132 := by
  intro h
  have s2 : √2 * √2 = (2 : ℝ) := Real.mul_self_sqrt (by norm_num)
  have s0 : (0 : ℝ) ≤ √2 := Real.sqrt_nonneg _
  have s1 : √2 ≤ (1.41422 : ℝ) := Real.sqrt_le_iff.mpr ⟨by norm_num, by norm_num⟩
  refine ⟨![(perlin2 (low 3 h)).1, (perlin2 (low 3 h)).2], ?_, fun u => ?_⟩
  · rw [Real.sqrt_le_left (by norm_num)]
    simp only [normSq, Fin.sum_univ_two, Matrix.cons_val_zero, Matrix.cons_val_one]
    generalize low 3 h = i
    fin_cases i <;> simp [perlin2] <;> nlinarith
  · simp only [rampArg, List.ofFn_succ, List.ofFn_zero, Fin.isValue, Lattice.gradDot, dotPerlin2_eq, dot2, Fin.sum_univ_two]
    simp

theorem slope3 (ft : Feat) : RampSlope 3 (Lattice.gradDot ft) 1.41422 := by
  intro h
  obtain ⟨a, ha⟩ : ∃ a : ℝ × ℝ × ℝ, common3 (low 4 h) = a := ⟨_, rfl⟩
  refine ⟨![a.1 - 2 / 3 * (a.1 + a.2.1 + a.2.2), a.2.1 - 2 / 3 * (a.1 + a.2.1 + a.2.2), a.2.2 - 2 / 3 * (a.1 + a.2.1 + a.2.2)], ?_, fun u => ?_⟩
  · rw [Real.sqrt_le_left (by norm_num)]
    simp only [normSq, Fin.sum_univ_three, Matrix.cons_val_zero, Matrix.cons_val_one, Matrix.cons_val]
    have : a.1 ^ 2 + a.2.1 ^ 2 + a.2.2 ^ 2 = 2 := by
      rw [← ha]
      generalize low 4 h = i
      fin_cases i <;> norm_num [common3]
    nlinarith
  · simp only [rampArg, mirror, List.ofFn_succ, List.ofFn_zero, Fin.isValue, Lattice.gradDot, dotCommon_eq, dot3, Fin.sum_univ_three, ha, if_true]
    simp
    ring

/-- Some order of the axes sorts the fractions. -/
theorem exists_rank (p : Fin 2 → ℝ) : ∃ rank : Equiv.Perm (Fin 2), ∀ i j, rank i < rank j → frac p j ≤ frac p i := by
  refine ⟨if frac p 0 ≥ frac p 1 then 1 else Equiv.swap 0 1, ?_⟩
  intro i j
  split_ifs with c
  · fin_cases i <;> fin_cases j <;> simp <;> linarith
  · fin_cases i <;> fin_cases j <;> simp <;> linarith

theorem reach_simplex2 : Reach 2 (1 / 2) 3 := by
  intro p
  obtain ⟨rank, hs⟩ := exists_rank p
  refine ⟨Finset.univ.image fun k : Fin 3 => corner (base p) rank k, Finset.card_image_le, fun v hv => ?_⟩
  rw [distSq_gridPoint]
  exact far_corner p rank hs v hv

theorem reach_super3 : Reach 3 (3 / 4) 8 := by
  intro p
  refine ⟨Finset.univ.image (step (near3 p) (off3 p)), Finset.card_image_le, fun v hv => ?_⟩
  rw [distSq_gridPoint]
  have := far_of_not_step (off3 p) (off3_voronoi p) (fun i => v i - near3 p i) ?_
  · refine le_trans ?_ (this.trans (le_of_eq ?_))
    · norm_num
    · congr 1; funext i; rw [off3_eq]; push_cast; ring
  · intro m e
    refine hv (Finset.mem_image.mpr ⟨m, Finset.mem_univ _, ?_⟩)
    funext i
    have := congrFun e i
    simp only [step, Pi.zero_apply] at this ⊢
    omega

theorem reach_super2 : Reach 2 (2 / 3) 4 := by
  classical
  intro p
  obtain ⟨fXY, hXY⟩ : ∃ b, b = decide (frac p 0 + frac p 1 > 1) := ⟨_, rfl⟩
  obtain ⟨fX, hX⟩ : ∃ b, b = decide (frac p 1 - 2 * frac p 0 < if fXY then (-1 : ℝ) else 0) := ⟨_, rfl⟩
  obtain ⟨fY, hY⟩ : ∃ b, b = decide (frac p 0 - 2 * frac p 1 < if fXY then (-1 : ℝ) else 0) := ⟨_, rfl⟩
  refine ⟨{fun i => base p i + (fun _ => 0) i, fun i => base p i + (fun _ => 1) i, fun i => base p i + vertA fXY fX i, fun i => base p i + vertB fXY fY i}, Finset.card_le_four, fun v hv => ?_⟩
  simp only [Finset.mem_insert, Finset.mem_singleton, not_or] at hv
  have ext : ∀ c : Fin 2 → ℤ, v 0 - base p 0 = c 0 ∧ v 1 - base p 1 = c 1 → v = fun i => base p i + c i := by
    rintro c ⟨h0, h1⟩; funext i; fin_cases i <;> simp <;> omega
  have := far2 (frac p 0) (frac p 1) ⟨Int.fract_nonneg _, Int.fract_lt_one _⟩ ⟨Int.fract_nonneg _, Int.fract_lt_one _⟩ fXY fX fY hXY hX hY (v 0 - base p 0) (v 1 - base p 1)
    (fun e => hv.1 (ext _ e)) (fun e => hv.2.1 (ext _ e)) (fun e => hv.2.2.1 (ext _ e)) (fun e => hv.2.2.2 (ext _ e))
  have e0 : frac p 0 - ((v 0 - base p 0 : ℤ) : ℝ) = skewed p 0 - v 0 := by simp only [frac, base]; push_cast; ring
  have e1 : frac p 1 - ((v 1 - base p 1 : ℤ) : ℝ) = skewed p 1 - v 1 := by simp only [frac, base]; push_cast; ring
  rw [e0, e1] at this
  rw [distSq_gridPoint]
  simp only [Q, Fin.sum_univ_two]
  push_cast; linarith

end
end FastNoise.Simplex
