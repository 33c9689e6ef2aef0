import Verif.SimplexSuper3
/-!
# The code of `SuperSimplex::Gen` in four dimensions
-/
namespace FastNoise.Simplex
open FastNoise.Hash FastNoise.Num FastNoise.Gradient FastNoise.Lattice

noncomputable section

/-- The nearest grid point found by the code. -/
def near4 (p : Fin 4 → ℝ) : Fin 4 → ℤ := fun i => base p i + vec4 (nearest4 (frac p 0) (frac p 1) (frac p 2) (frac p 3)) i
/-- The offset from it. -/
def off4 (p : Fin 4 → ℝ) : Fin 4 → ℝ := fun i => frac p i - vec4 (nearest4 (frac p 0) (frac p 1) (frac p 2) (frac p 3)) i

theorem off4_eq (p : Fin 4 → ℝ) (i : Fin 4) : off4 p i = skewed p i - near4 p i := by
  simp only [off4, near4, frac, base]; push_cast; ring

theorem off4_voronoi (p : Fin 4 → ℝ) : Voronoi (off4 p) :=
  voronoi_of_nearest (frac p) (fun _ => ⟨Int.fract_nonneg _, Int.fract_lt_one _⟩) _ fun c hc => nearest4_spec (frac p) c hc

theorem vertex4_eq (ramp : Ramp) (seed : I32) (p : Fin 4 → ℝ) (b : Fin 4 → ℤ) (u : Fin 4 → ℝ) (hu : ∀ i, skewed p i - b i = u i) (m0 m1 m2 m3 : Bool)
    (s : Bool) (o1 o0 f value S N : ℝ) (hS : S = u 0 + u 1 + u 2 + u 3) (hN : N = bit m0 + bit m1 + bit m2 + bit m3) (hs : s = side u ![m0, m1, m2, m3])
    (h1 : o1 = sgnI s * (1 + kUnskew 4 * N)) (h0 : (m0 && m1 && m2 && m3) = false → o0 = sgnI s * (kUnskew 4 * N))
    (hf : f = (4 / 5 - ((u 0 - sgnI s * bit m0) ^ 2 + (u 1 - sgnI s * bit m1) ^ 2 + (u 2 - sgnI s * bit m2) ^ 2 + (u 3 - sgnI s * bit m3) ^ 2 -
      (S - sgnI s * N) ^ 2 / 5)) / 2) :
    vertex4 ramp seed (BitVec.ofInt 32 (b 0) * primeX, BitVec.ofInt 32 (b 1) * primeY, BitVec.ofInt 32 (b 2) * primeZ, BitVec.ofInt 32 (b 3) * primeW)
      (u 0 + kUnskew 4 * S, u 1 + kUnskew 4 * S, u 2 + kUnskew 4 * S, u 3 + kUnskew 4 * S) (m0, m1, m2, m3) s o1 o0 (max f 0) value =
    contribution ramp seed (4 / 5) p (step b u ![m0, m1, m2, m3]) / 16 + value := by
  have hst : ∀ i, skewed p i - ((step b u ![m0, m1, m2, m3] i : ℤ) : ℝ) = u i - sgnI s * bit (![m0, m1, m2, m3] i) := by
    intro i; rw [← hu i, hs]; simp only [step]; push_cast; ring
  rw [contribution_eq, term4]
  simp only [hst]
  have hsum : u 0 - ↑(sgnI s) * ↑(bit m0) + (u 1 - ↑(sgnI s) * ↑(bit m1)) + (u 2 - ↑(sgnI s) * ↑(bit m2)) + (u 3 - ↑(sgnI s) * ↑(bit m3)) =
    S - sgnI s * N := by rw [hS, hN]; ring
  simp only [Matrix.cons_val_zero, Matrix.cons_val_one, Matrix.cons_val, hsum]
  simp only [vertex4, stepPrime_eq, Num.fma]
  rw [hf]
  have hh : ∀ x : ℝ, pow4 (max (x / 2) 0) = pow4 (max x 0) / 16 := by
    intro x
    rw [show max (x / 2) 0 = max x 0 / 2 by rw [← max_div_div_right (by norm_num)]; simp]
    unfold pow4; ring
  have ho : ∀ m : Bool, (m = false → (m0 && m1 && m2 && m3) = false) → (if m then o1 else o0) = sgnI s * bit m + kUnskew 4 * (sgnI s * N) := by
    intro m hm; cases m
    · simp only [bit, h0 (hm rfl)]; simp; ring
    · simp only [bit, h1]; simp; ring
  rw [hh, ho _ (by rintro rfl; simp), ho _ (by rintro rfl; simp), ho _ (by rintro rfl; simp), ho _ (by rintro rfl; simp)]
  have hstep : ∀ i, step b u ![m0, m1, m2, m3] i = b i + sgnI s * bit (![m0, m1, m2, m3] i) := by intro i; rw [hs]; rfl
  simp only [hstep, Matrix.cons_val_zero, Matrix.cons_val_one, Matrix.cons_val]
  rw [mul_div_right_comm]
  congr 3 <;> ring

set_option maxHeartbeats 1600000 in
theorem super4_sum (ramp : Ramp) (seed : I32) (p : Fin 4 → ℝ) (h : Safe p) :
    super4 ramp seed (p 0) (p 1) (p 2) (p 3) = (∑ m, contribution ramp seed (4 / 5) p (step (near4 p) (off4 p) m)) / 16 := by
  have b0 : ⌊skewed p 0⌋ = base p 0 := rfl
  have f0 : skewed p 0 - (base p 0 : ℤ) = frac p 0 := rfl
  have b1 : ⌊skewed p 1⌋ = base p 1 := rfl
  have f1 : skewed p 1 - (base p 1 : ℤ) = frac p 1 := rfl
  have b2 : ⌊skewed p 2⌋ = base p 2 := rfl
  have f2 : skewed p 2 - (base p 2 : ℤ) = frac p 2 := rfl
  have b3 : ⌊skewed p 3⌋ = base p 3 := rfl
  have f3 : skewed p 3 - (base p 3 : ℤ) = frac p 3 := rfl
  have md : ∀ (m : Bool) (x : ℝ), maskedDec m x = x - (bit m : ℤ) := by intro m x; cases m <;> simp [maskedDec, bit]
  have hn0 : near4 p 0 = base p 0 + bit (nearest4 (frac p 0) (frac p 1) (frac p 2) (frac p 3) &&& 1 != 0) := rfl
  have ho0 : off4 p 0 = frac p 0 - (bit (nearest4 (frac p 0) (frac p 1) (frac p 2) (frac p 3) &&& 1 != 0) : ℤ) := rfl
  have hn1 : near4 p 1 = base p 1 + bit (nearest4 (frac p 0) (frac p 1) (frac p 2) (frac p 3) &&& 2 != 0) := rfl
  have ho1 : off4 p 1 = frac p 1 - (bit (nearest4 (frac p 0) (frac p 1) (frac p 2) (frac p 3) &&& 2 != 0) : ℤ) := rfl
  have hn2 : near4 p 2 = base p 2 + bit (nearest4 (frac p 0) (frac p 1) (frac p 2) (frac p 3) &&& 4 != 0) := rfl
  have ho2 : off4 p 2 = frac p 2 - (bit (nearest4 (frac p 0) (frac p 1) (frac p 2) (frac p 3) &&& 4 != 0) : ℤ) := rfl
  have hn3 : near4 p 3 = base p 3 + bit (nearest4 (frac p 0) (frac p 1) (frac p 2) (frac p 3) &&& 8 != 0) := rfl
  have ho3 : off4 p 3 = frac p 3 - (bit (nearest4 (frac p 0) (frac p 1) (frac p 2) (frac p 3) &&& 8 != 0) : ℤ) := rfl
  simp only [super4, skew4, Safe.convert h, md, b0, f0, ← hn0, ← ho0, b1, f1, ← hn1, ← ho1, b2, f2, ← hn2, ← ho2, b3, f3, ← hn3, ← ho3]
  have hv := (off4_voronoi p).Q_le
  have hu : ∀ i, skewed p i - near4 p i = off4 p i := fun i => (off4_eq p i).symm
  clear b0 b1 b2 b3 f0 f1 f2 f3 hn0 hn1 hn2 hn3 ho0 ho1 ho2 ho3
  generalize near4 p = b at *
  generalize off4 p = u at *
  have q0 : 0 ≤ 4 / 5 - (u 0 ^ 2 + u 1 ^ 2 + u 2 ^ 2 + u 3 ^ 2 - (u 0 + u 1 + u 2 + u 3) ^ 2 / 5) := by
    simp only [Q, Fin.sum_univ_four] at hv; norm_num at hv; linarith
  obtain ⟨S, hS⟩ : ∃ S, S = u 0 + u 1 + u 2 + u 3 := ⟨_, rfl⟩
  have kk := kUnskew4_sq
  rw [← hS] at q0 ⊢
  have hfb : fnma (u 3 + kUnskew 4 * S) (u 3 + kUnskew 4 * S) (fnma (u 2 + kUnskew 4 * S) (u 2 + kUnskew 4 * S) (fnma (u 1 + kUnskew 4 * S) (u 1 + kUnskew 4 * S)
      (fnma (u 0 + kUnskew 4 * S) (u 0 + kUnskew 4 * S) (4 / 5)))) * 0.5 = (4 / 5 - (u 0 ^ 2 + u 1 ^ 2 + u 2 ^ 2 + u 3 ^ 2 - S ^ 2 / 5)) / 2 := by
    have := sq_identity4 (u 0) (u 1) (u 2) (u 3) S hS
    simp only [fnma]; linarith
  rw [hfb]
  have hB : ∀ m0 m1 m2 m3, side u ![m0, m1, m2, m3] =
      decide ((u 0 * bit m0 + u 1 * bit m1 + u 2 * bit m2 + u 3 * bit m3 - S * (bit m0 + bit m1 + bit m2 + bit m3) / 5 : ℝ) < 0) := by
    intro m0 m1 m2 m3
    simp only [side, B, Fin.sum_univ_four, ← hS, Matrix.cons_val_zero, Matrix.cons_val_one, Matrix.cons_val]; norm_num
  rw [sum_bools4]
  have key := fun m0 m1 m2 m3 s o1 o0 f value N hN hs h1 h0 hf => vertex4_eq ramp seed p b u hu m0 m1 m2 m3 s o1 o0 f value S N hS hN hs h1 h0 hf
  rw [key false false false true _ _ _ _ _ 1 (by simp [bit])
    (by rw [hB]; refine decide_eq_decide.mpr ?_; simp only [bit]; norm_num; constructor <;> intro <;> linarith)
    (by simp only [flip_eq]; ring1) (by first | (intro _; simp only [flip_eq]; ring1) | (intro hcon; exact absurd hcon (by decide)))
    (by
      have := sgnI_sq (decide (u 3 + -1 / 5 * S < 0))
      simp only [flip_eq, bit, Num.fma, if_true, if_false, Bool.false_eq_true]; push_cast
      generalize ((sgnI _ : ℤ) : ℝ) = σ at *
      rw [hS]
      linear_combination (2 / 5) * this + 4 * σ * (u 0 + u 1 + u 2 + u 3) * kk)]
  rw [key false false true true _ _ _ _ _ 2 (by simp [bit]; norm_num)
    (by rw [hB]; refine decide_eq_decide.mpr ?_; simp only [bit]; norm_num; constructor <;> intro <;> linarith)
    (by simp only [flip_eq]; ring1) (by first | (intro _; simp only [flip_eq]; ring1) | (intro hcon; exact absurd hcon (by decide)))
    (by
      have := sgnI_sq (decide (u 2 + -1 / 5 * S < -(u 3 + -1 / 5 * S)))
      simp only [flip_eq, bit, Num.fma, if_true, if_false, Bool.false_eq_true]; push_cast
      generalize ((sgnI _ : ℤ) : ℝ) = σ at *
      rw [hS]
      linear_combination (3 / 5) * this + 8 * σ * (u 0 + u 1 + u 2 + u 3) * kk)]
  rw [key false false true false _ _ _ _ _ 1 (by simp [bit])
    (by rw [hB]; refine decide_eq_decide.mpr ?_; simp only [bit]; norm_num; constructor <;> intro <;> linarith)
    (by simp only [flip_eq]; ring1) (by first | (intro _; simp only [flip_eq]; ring1) | (intro hcon; exact absurd hcon (by decide)))
    (by
      have := sgnI_sq (decide (u 2 + -1 / 5 * S < 0))
      simp only [flip_eq, bit, Num.fma, if_true, if_false, Bool.false_eq_true]; push_cast
      generalize ((sgnI _ : ℤ) : ℝ) = σ at *
      rw [hS]
      linear_combination (2 / 5) * this + 4 * σ * (u 0 + u 1 + u 2 + u 3) * kk)]
  rw [key false true false true _ _ _ _ _ 2 (by simp [bit]; norm_num)
    (by rw [hB]; refine decide_eq_decide.mpr ?_; simp only [bit]; norm_num; constructor <;> intro <;> linarith)
    (by simp only [flip_eq]; ring1) (by first | (intro _; simp only [flip_eq]; ring1) | (intro hcon; exact absurd hcon (by decide)))
    (by
      have := sgnI_sq (decide (u 1 + -1 / 5 * S < -(u 3 + -1 / 5 * S)))
      simp only [flip_eq, bit, Num.fma, if_true, if_false, Bool.false_eq_true]; push_cast
      generalize ((sgnI _ : ℤ) : ℝ) = σ at *
      rw [hS]
      linear_combination (3 / 5) * this + 8 * σ * (u 0 + u 1 + u 2 + u 3) * kk)]
  rw [key false true true false _ _ _ _ _ 2 (by simp [bit]; norm_num)
    (by rw [hB]; refine decide_eq_decide.mpr ?_; simp only [bit]; norm_num; constructor <;> intro <;> linarith)
    (by simp only [flip_eq]; ring1) (by first | (intro _; simp only [flip_eq]; ring1) | (intro hcon; exact absurd hcon (by decide)))
    (by
      have := sgnI_sq (decide (u 1 + -1 / 5 * S < -(u 2 + -1 / 5 * S)))
      simp only [flip_eq, bit, Num.fma, if_true, if_false, Bool.false_eq_true]; push_cast
      generalize ((sgnI _ : ℤ) : ℝ) = σ at *
      rw [hS]
      linear_combination (3 / 5) * this + 8 * σ * (u 0 + u 1 + u 2 + u 3) * kk)]
  rw [key false true false false _ _ _ _ _ 1 (by simp [bit])
    (by rw [hB]; refine decide_eq_decide.mpr ?_; simp only [bit]; norm_num; constructor <;> intro <;> linarith)
    (by simp only [flip_eq]; ring1) (by first | (intro _; simp only [flip_eq]; ring1) | (intro hcon; exact absurd hcon (by decide)))
    (by
      have := sgnI_sq (decide (u 1 + -1 / 5 * S < 0))
      simp only [flip_eq, bit, Num.fma, if_true, if_false, Bool.false_eq_true]; push_cast
      generalize ((sgnI _ : ℤ) : ℝ) = σ at *
      rw [hS]
      linear_combination (2 / 5) * this + 4 * σ * (u 0 + u 1 + u 2 + u 3) * kk)]
  rw [key true false false true _ _ _ _ _ 2 (by simp [bit]; norm_num)
    (by rw [hB]; refine decide_eq_decide.mpr ?_; simp only [bit]; norm_num; constructor <;> intro <;> linarith)
    (by simp only [flip_eq]; ring1) (by first | (intro _; simp only [flip_eq]; ring1) | (intro hcon; exact absurd hcon (by decide)))
    (by
      have := sgnI_sq (decide (u 0 + -1 / 5 * S < -(u 3 + -1 / 5 * S)))
      simp only [flip_eq, bit, Num.fma, if_true, if_false, Bool.false_eq_true]; push_cast
      generalize ((sgnI _ : ℤ) : ℝ) = σ at *
      rw [hS]
      linear_combination (3 / 5) * this + 8 * σ * (u 0 + u 1 + u 2 + u 3) * kk)]
  rw [key true false true false _ _ _ _ _ 2 (by simp [bit]; norm_num)
    (by rw [hB]; refine decide_eq_decide.mpr ?_; simp only [bit]; norm_num; constructor <;> intro <;> linarith)
    (by simp only [flip_eq]; ring1) (by first | (intro _; simp only [flip_eq]; ring1) | (intro hcon; exact absurd hcon (by decide)))
    (by
      have := sgnI_sq (decide (u 0 + -1 / 5 * S < -(u 2 + -1 / 5 * S)))
      simp only [flip_eq, bit, Num.fma, if_true, if_false, Bool.false_eq_true]; push_cast
      generalize ((sgnI _ : ℤ) : ℝ) = σ at *
      rw [hS]
      linear_combination (3 / 5) * this + 8 * σ * (u 0 + u 1 + u 2 + u 3) * kk)]
  rw [key true true false false _ _ _ _ _ 2 (by simp [bit]; norm_num)
    (by rw [hB]; refine decide_eq_decide.mpr ?_; simp only [bit]; norm_num; constructor <;> intro <;> linarith)
    (by simp only [flip_eq]; ring1) (by first | (intro _; simp only [flip_eq]; ring1) | (intro hcon; exact absurd hcon (by decide)))
    (by
      have := sgnI_sq (decide (u 0 + -1 / 5 * S < -(u 1 + -1 / 5 * S)))
      simp only [flip_eq, bit, Num.fma, if_true, if_false, Bool.false_eq_true]; push_cast
      generalize ((sgnI _ : ℤ) : ℝ) = σ at *
      rw [hS]
      linear_combination (3 / 5) * this + 8 * σ * (u 0 + u 1 + u 2 + u 3) * kk)]
  rw [key true false false false _ _ _ _ _ 1 (by simp [bit])
    (by rw [hB]; refine decide_eq_decide.mpr ?_; simp only [bit]; norm_num; constructor <;> intro <;> linarith)
    (by simp only [flip_eq]; ring1) (by first | (intro _; simp only [flip_eq]; ring1) | (intro hcon; exact absurd hcon (by decide)))
    (by
      have := sgnI_sq (decide (u 0 + -1 / 5 * S < 0))
      simp only [flip_eq, bit, Num.fma, if_true, if_false, Bool.false_eq_true]; push_cast
      generalize ((sgnI _ : ℤ) : ℝ) = σ at *
      rw [hS]
      linear_combination (2 / 5) * this + 4 * σ * (u 0 + u 1 + u 2 + u 3) * kk)]
  rw [key false true true true _ _ _ _ _ 3 (by simp [bit]; norm_num)
    (by rw [hB]; refine decide_eq_decide.mpr ?_; simp only [bit]; norm_num; constructor <;> intro <;> linarith)
    (by simp only [flip_eq]; ring1) (by first | (intro _; simp only [flip_eq]; ring1) | (intro hcon; exact absurd hcon (by decide)))
    (by
      have := sgnI_sq (decide (-(-1 / 5 * S) < u 0 + -1 / 5 * S))
      simp only [flip_eq, bit, Num.fma, if_true, if_false, Bool.false_eq_true]; push_cast
      generalize ((sgnI _ : ℤ) : ℝ) = σ at *
      rw [hS]
      linear_combination (3 / 5) * this + 12 * σ * (u 0 + u 1 + u 2 + u 3) * kk)]
  rw [key true false true true _ _ _ _ _ 3 (by simp [bit]; norm_num)
    (by rw [hB]; refine decide_eq_decide.mpr ?_; simp only [bit]; norm_num; constructor <;> intro <;> linarith)
    (by simp only [flip_eq]; ring1) (by first | (intro _; simp only [flip_eq]; ring1) | (intro hcon; exact absurd hcon (by decide)))
    (by
      have := sgnI_sq (decide (-(-1 / 5 * S) < u 1 + -1 / 5 * S))
      simp only [flip_eq, bit, Num.fma, if_true, if_false, Bool.false_eq_true]; push_cast
      generalize ((sgnI _ : ℤ) : ℝ) = σ at *
      rw [hS]
      linear_combination (3 / 5) * this + 12 * σ * (u 0 + u 1 + u 2 + u 3) * kk)]
  rw [key true true false true _ _ _ _ _ 3 (by simp [bit]; norm_num)
    (by rw [hB]; refine decide_eq_decide.mpr ?_; simp only [bit]; norm_num; constructor <;> intro <;> linarith)
    (by simp only [flip_eq]; ring1) (by first | (intro _; simp only [flip_eq]; ring1) | (intro hcon; exact absurd hcon (by decide)))
    (by
      have := sgnI_sq (decide (-(-1 / 5 * S) < u 2 + -1 / 5 * S))
      simp only [flip_eq, bit, Num.fma, if_true, if_false, Bool.false_eq_true]; push_cast
      generalize ((sgnI _ : ℤ) : ℝ) = σ at *
      rw [hS]
      linear_combination (3 / 5) * this + 12 * σ * (u 0 + u 1 + u 2 + u 3) * kk)]
  rw [key true true true false _ _ _ _ _ 3 (by simp [bit]; norm_num)
    (by rw [hB]; refine decide_eq_decide.mpr ?_; simp only [bit]; norm_num; constructor <;> intro <;> linarith)
    (by simp only [flip_eq]; ring1) (by first | (intro _; simp only [flip_eq]; ring1) | (intro hcon; exact absurd hcon (by decide)))
    (by
      have := sgnI_sq (decide (-(-1 / 5 * S) < u 3 + -1 / 5 * S))
      simp only [flip_eq, bit, Num.fma, if_true, if_false, Bool.false_eq_true]; push_cast
      generalize ((sgnI _ : ℤ) : ℝ) = σ at *
      rw [hS]
      linear_combination (3 / 5) * this + 12 * σ * (u 0 + u 1 + u 2 + u 3) * kk)]
  rw [key true true true true _ _ _ _ _ 4 (by simp [bit]; norm_num)
    (by rw [hB]; refine decide_eq_decide.mpr ?_; simp only [bit]; norm_num; constructor <;> intro <;> linarith)
    (by simp only [flip_eq]; ring1) (by first | (intro _; simp only [flip_eq]; ring1) | (intro hcon; exact absurd hcon (by decide)))
    (by
      have := sgnI_sq (decide (-(-1 / 5 * S) < 0))
      simp only [flip_eq, bit, Num.fma, if_true, if_false, Bool.false_eq_true]; push_cast
      generalize ((sgnI _ : ℤ) : ℝ) = σ at *
      rw [hS]
      linear_combination (2 / 5) * this + 16 * σ * (u 0 + u 1 + u 2 + u 3) * kk)]
  have hb : step b u ![false, false, false, false] = b := by funext i; fin_cases i <;> simp [step, bit]
  rw [hb, contribution_eq ramp seed (4 / 5) p b, term4]
  simp only [hu, ← hS]
  rw [max_eq_left q0]
  unfold pow4; ring

end
end FastNoise.Simplex
