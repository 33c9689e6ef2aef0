import Verif.SimplexSuper2
import Mathlib.Data.Fin.Tuple.Basic
import Mathlib.Logic.Equiv.Fin.Basic
import Mathlib.Data.Fintype.BigOperators
/-!
# The code of `SuperSimplex::Gen` in three dimensions sums all contributions
-/
namespace FastNoise.Simplex
open FastNoise.Hash FastNoise.Num FastNoise.Gradient FastNoise.Lattice

noncomputable section

variable {n : Nat}

/-- The covering radius of the grid. -/
theorem Voronoi.Q_le {d : Fin n → ℝ} (h : Voronoi d) : Q d ≤ (n : ℝ) ^ 2 / (4 * (n + 1)) := by
  rw [Q_eq]
  have h0 : (0 : ℝ) < (n : ℝ) + 1 := by positivity
  have hs : ∀ x : ℝ, |x| ≤ n / (2 * (n + 1)) → x ^ 2 ≤ ((n : ℝ) / (2 * (n + 1))) ^ 2 := by
    intro x hx; rw [← sq_abs]; exact pow_le_pow_left₀ (abs_nonneg _) hx 2
  have h1 := hs _ h.mean
  have h2 : ∑ i, (d i - Simplex.mean d) ^ 2 ≤ ∑ _i : Fin n, ((n : ℝ) / (2 * (n + 1))) ^ 2 := Finset.sum_le_sum fun i _ => hs _ (h.axis i)
  rw [Finset.sum_const, Finset.card_univ, Fintype.card_fin, nsmul_eq_mul] at h2
  refine (add_le_add h1 h2).trans (le_of_eq ?_)
  field_simp; ring

/-- The grid points may be converted to 32 bit integers, also one further up. -/
def Safe (p : Fin n → ℝ) : Prop := ∀ i, InRange (skewed p i) ∧ InRange (skewed p i + 1)

theorem Safe.convert {p : Fin n → ℝ} (h : Safe p) (m : Bool) (i : Fin n) :
    convertI32 (maskedInc m ((base p i : ℤ) : ℝ)) = BitVec.ofInt 32 (base p i + bit m) := by
  cases m
  · have : convertI32 ((base p i : ℤ) : ℝ) = BitVec.ofInt 32 (base p i) := convertI32_floor (h i).1
    simpa [maskedInc, bit] using this
  · have := convertI32_floor (h i).2
    rw [Int.floor_add_one, show ⌊skewed p i⌋ = base p i from rfl] at this
    simpa [maskedInc, bit] using this

/-- The nearest grid point and the offset from it, given the steps from the base. -/
theorem voronoi_of_nearest (d : Fin n → ℝ) (hd : ∀ i, 0 ≤ d i ∧ d i < 1) (c : Fin n → ℤ)
    (hc : ∀ c' : Fin n → ℤ, (∀ i, c' i = 0 ∨ c' i = 1) → Q (fun i => d i - c i) ≤ Q fun i => d i - c' i) : Voronoi fun i => d i - c i := by
  intro v
  obtain ⟨c', h1, h2⟩ := exists_cube_le d hd (fun i => c i + v i)
  refine (hc c' h1).trans (h2.trans (le_of_eq ?_))
  congr 1; funext i; push_cast; ring

theorem stepPrime_eq (s m : Bool) (a : ℤ) (q : I32) : stepPrime s m (BitVec.ofInt 32 a * q) q = BitVec.ofInt 32 (a + sgnI s * bit m) * q := by
  cases m
  · simp [stepPrime, bit]
  · cases s
    · simp [stepPrime, bit, sgnI, ofInt_succ_mul]
    · simp only [stepPrime, bit, sgnI, if_true, mul_one, ofInt_sub_mul, BitVec.sub_eq_add_neg]

theorem flip_eq (s : Bool) (v : ℝ) : flip s v = (sgnI s : ℝ) * v := by cases s <;> simp [flip, sgnI]

theorem sgnI_sq (s : Bool) : ((sgnI s : ℤ) : ℝ) ^ 2 = 1 := by cases s <;> simp [sgnI]

theorem sum_bools (f : (Fin (n + 1) → Bool) → ℝ) : ∑ m, f m = ∑ m : Fin n → Bool, f (Fin.cons true m) + ∑ m : Fin n → Bool, f (Fin.cons false m) := by
  rw [← (Fin.consEquiv fun _ => Bool).sum_comp, Fintype.sum_prod_type, Fintype.sum_bool]
  rfl

theorem sum_bools3 (f : (Fin 3 → Bool) → ℝ) : ∑ m, f m =
    f ![true, true, true] + f ![true, true, false] + f ![true, false, true] + f ![true, false, false] +
    f ![false, true, true] + f ![false, true, false] + f ![false, false, true] + f ![false, false, false] := by
  have e0 : ∀ f : (Fin 0 → Bool) → ℝ, ∑ m, f m = f ![] := by intro f; simp [Matrix.empty_eq]
  simp only [sum_bools, e0]
  have e : ∀ a b c : Bool, (Fin.cons a (Fin.cons b (Fin.cons c ![])) : Fin 3 → Bool) = ![a, b, c] := fun a b c => rfl
  simp only [e]; ring

theorem sum_bools4 (f : (Fin 4 → Bool) → ℝ) : ∑ m, f m =
    (f ![true, true, true, true] + f ![true, true, true, false] + f ![true, true, false, true] + f ![true, true, false, false] +
    f ![true, false, true, true] + f ![true, false, true, false] + f ![true, false, false, true] + f ![true, false, false, false]) +
    (f ![false, true, true, true] + f ![false, true, true, false] + f ![false, true, false, true] + f ![false, true, false, false] +
    f ![false, false, true, true] + f ![false, false, true, false] + f ![false, false, false, true] + f ![false, false, false, false]) := by
  have e0 : ∀ f : (Fin 0 → Bool) → ℝ, ∑ m, f m = f ![] := by intro f; simp [Matrix.empty_eq]
  simp only [sum_bools, e0]
  have e : ∀ a b c d : Bool, (Fin.cons a (Fin.cons b (Fin.cons c (Fin.cons d ![]))) : Fin 4 → Bool) = ![a, b, c, d] := fun a b c d => rfl
  simp only [e]; ring

/-! ## Three dimensions -/

/-- The nearest grid point found by the code. -/
def near3 (p : Fin 3 → ℝ) : Fin 3 → ℤ := fun i => base p i + vec3 (nearest3 (frac p 0) (frac p 1) (frac p 2)) i
/-- The offset from it. -/
def off3 (p : Fin 3 → ℝ) : Fin 3 → ℝ := fun i => frac p i - vec3 (nearest3 (frac p 0) (frac p 1) (frac p 2)) i

theorem off3_eq (p : Fin 3 → ℝ) (i : Fin 3) : off3 p i = skewed p i - near3 p i := by
  simp only [off3, near3, frac, base]; push_cast; ring

theorem off3_voronoi (p : Fin 3 → ℝ) : Voronoi (off3 p) :=
  voronoi_of_nearest (frac p) (fun _ => ⟨Int.fract_nonneg _, Int.fract_lt_one _⟩) _ fun c hc => nearest3_spec (frac p) c hc

theorem vertex3_eq (ramp : Ramp) (seed : I32) (p : Fin 3 → ℝ) (b : Fin 3 → ℤ) (u : Fin 3 → ℝ) (hu : ∀ i, skewed p i - b i = u i) (m0 m1 m2 : Bool)
    (s : Bool) (o1 o0 f value S N : ℝ) (hS : S = u 0 + u 1 + u 2) (hN : N = bit m0 + bit m1 + bit m2) (hs : s = side u ![m0, m1, m2])
    (h1 : o1 = sgnI s * (1 + kUnskew 3 * N)) (h0 : (m0 && m1 && m2) = false → o0 = sgnI s * (kUnskew 3 * N))
    (hf : pow4 f = pow4 (max (((3 / 4) - ((u 0 - sgnI s * bit m0) ^ 2 + (u 1 - sgnI s * bit m1) ^ 2 + (u 2 - sgnI s * bit m2) ^ 2 - (S - sgnI s * N) ^ 2 / 4)) / 2) 0)) :
    vertex3 ramp seed (BitVec.ofInt 32 (b 0) * primeX, BitVec.ofInt 32 (b 1) * primeY, BitVec.ofInt 32 (b 2) * primeZ)
      (u 0 + kUnskew 3 * S, u 1 + kUnskew 3 * S, u 2 + kUnskew 3 * S) (m0, m1, m2) s o1 o0 f value =
    contribution ramp seed (3 / 4) p (step b u ![m0, m1, m2]) / 16 + value := by
  have hst : ∀ i, skewed p i - ((step b u ![m0, m1, m2] i : ℤ) : ℝ) = u i - sgnI s * bit (![m0, m1, m2] i) := by
    intro i; rw [← hu i, hs]; simp only [step]; push_cast; ring
  rw [contribution_eq, term3]
  simp only [hst]
  have hsum : u 0 - ↑(sgnI s) * ↑(bit m0) + (u 1 - ↑(sgnI s) * ↑(bit m1)) + (u 2 - ↑(sgnI s) * ↑(bit m2)) = S - sgnI s * N := by rw [hS, hN]; ring
  simp only [Matrix.cons_val_zero, Matrix.cons_val_one, Matrix.cons_val, hsum]
  simp only [vertex3, stepPrime_eq, Num.fma]
  rw [hf]
  have hh : ∀ x : ℝ, pow4 (max (x / 2) 0) = pow4 (max x 0) / 16 := by
    intro x
    rw [show max (x / 2) 0 = max x 0 / 2 by rw [← max_div_div_right (by norm_num)]; simp]
    unfold pow4; ring
  have ho : ∀ m : Bool, (m = false → (m0 && m1 && m2) = false) → (if m then o1 else o0) = sgnI s * bit m + kUnskew 3 * (sgnI s * N) := by
    intro m hm; cases m
    · simp only [bit, h0 (hm rfl)]; simp; ring
    · simp only [bit, h1]; simp; ring
  rw [hh, ho _ (by rintro rfl; simp), ho _ (by rintro rfl; simp), ho _ (by rintro rfl; simp)]
  have hstep : ∀ i, step b u ![m0, m1, m2] i = b i + sgnI s * bit (![m0, m1, m2] i) := by intro i; rw [hs]; rfl
  simp only [hstep, Matrix.cons_val_zero, Matrix.cons_val_one, Matrix.cons_val]
  rw [mul_div_right_comm]
  congr 3 <;> ring

theorem pow4_min (x : ℝ) : pow4 (min (-x) 0) = pow4 (max x 0) := by
  rw [show min (-x) 0 = -max x 0 by rw [← neg_zero, min_neg_neg]; simp]; unfold pow4; ring

theorem super3_sum (ramp : Ramp) (seed : I32) (p : Fin 3 → ℝ) (h : Safe p) :
    super3 ramp seed (p 0) (p 1) (p 2) = (∑ m, contribution ramp seed (3 / 4) p (step (near3 p) (off3 p) m)) / 16 := by
  have b0 : ⌊skewed p 0⌋ = base p 0 := rfl
  have b1 : ⌊skewed p 1⌋ = base p 1 := rfl
  have b2 : ⌊skewed p 2⌋ = base p 2 := rfl
  have f0 : skewed p 0 - (base p 0 : ℤ) = frac p 0 := rfl
  have f1 : skewed p 1 - (base p 1 : ℤ) = frac p 1 := rfl
  have f2 : skewed p 2 - (base p 2 : ℤ) = frac p 2 := rfl
  have md : ∀ (m : Bool) (x : ℝ), maskedDec m x = x - (bit m : ℤ) := by intro m x; cases m <;> simp [maskedDec, bit]
  have hn0 : near3 p 0 = base p 0 + bit (nearest3 (frac p 0) (frac p 1) (frac p 2) &&& 1 != 0) := rfl
  have hn1 : near3 p 1 = base p 1 + bit (nearest3 (frac p 0) (frac p 1) (frac p 2) &&& 2 != 0) := rfl
  have hn2 : near3 p 2 = base p 2 + bit (nearest3 (frac p 0) (frac p 1) (frac p 2) &&& 4 != 0) := rfl
  have ho0 : off3 p 0 = frac p 0 - (bit (nearest3 (frac p 0) (frac p 1) (frac p 2) &&& 1 != 0) : ℤ) := rfl
  have ho1 : off3 p 1 = frac p 1 - (bit (nearest3 (frac p 0) (frac p 1) (frac p 2) &&& 2 != 0) : ℤ) := rfl
  have ho2 : off3 p 2 = frac p 2 - (bit (nearest3 (frac p 0) (frac p 1) (frac p 2) &&& 4 != 0) : ℤ) := rfl
  simp only [super3, skew3, b0, b1, b2, f0, f1, f2, Safe.convert h, md, ← hn0, ← hn1, ← hn2, ← ho0, ← ho1, ← ho2]
  have hv := (off3_voronoi p).Q_le
  have hu : ∀ i, skewed p i - near3 p i = off3 p i := fun i => (off3_eq p i).symm
  generalize near3 p = b at *
  generalize off3 p = u at *
  have q0 : 0 ≤ 3 / 4 - (u 0 ^ 2 + u 1 ^ 2 + u 2 ^ 2 - (u 0 + u 1 + u 2) ^ 2 / 4) := by
    simp only [Q, Fin.sum_univ_three] at hv; norm_num at hv; linarith
  obtain ⟨S, hS⟩ : ∃ S, S = u 0 + u 1 + u 2 := ⟨_, rfl⟩
  rw [← hS] at q0 ⊢
  have hB : ∀ m0 m1 m2, side u ![m0, m1, m2] = decide ((u 0 * bit m0 + u 1 * bit m1 + u 2 * bit m2 - S * (bit m0 + bit m1 + bit m2) / 4 : ℝ) < 0) := by
    intro m0 m1 m2
    simp only [side, B, Fin.sum_univ_three, ← hS, Matrix.cons_val_zero, Matrix.cons_val_one, Matrix.cons_val]; norm_num
  rw [sum_bools3]
  have key := fun m0 m1 m2 s o1 o0 f value N hN hs h1 h0 hf => vertex3_eq ramp seed p b u hu m0 m1 m2 s o1 o0 f value S N hS hN hs h1 h0 hf
  rw [key false false true _ _ _ _ _ 1 (by simp [bit]) ?_ ?_ ?_ ?_, key false true false _ _ _ _ _ 1 (by simp [bit]) ?_ ?_ ?_ ?_,
    key true false false _ _ _ _ _ 1 (by simp [bit]) ?_ ?_ ?_ ?_, key false true true _ _ _ _ _ 2 (by simp [bit]; norm_num) ?_ ?_ ?_ ?_,
    key true false true _ _ _ _ _ 2 (by simp [bit]; norm_num) ?_ ?_ ?_ ?_, key true true false _ _ _ _ _ 2 (by simp [bit]; norm_num) ?_ ?_ ?_ ?_,
    key true true true _ _ _ _ _ 3 (by simp [bit]; norm_num) ?_ ?_ ?_ ?_]
  rotate_left
  all_goals try (rw [hB]; refine decide_eq_decide.mpr ?_; simp only [bit]; norm_num; constructor <;> intro <;> linarith)
  all_goals try (simp only [flip_eq, kUnskew3]; ring1)
  all_goals try (intro _; simp only [flip_eq, kUnskew3]; ring1)
  all_goals try (intro hcon; exact absurd hcon (by decide))
  · refine congrArg (fun t => pow4 (max t 0)) ?_
    have := sgnI_sq (decide (-(-1 / 4 * S) < 0))
    simp only [flip_eq, kUnskew3, bit, fnma, Num.fma, if_true, if_false, Bool.false_eq_true]; push_cast
    rw [hS]; rw [hS] at this
    linear_combination (3 / 8) * this
  · refine Eq.trans (congrArg (fun t => pow4 (min t 0)) ?_) (pow4_min _)
    have := sgnI_sq (decide (-(-1 / 4 * S) < u 2 + -1 / 4 * S))
    simp only [flip_eq, kUnskew3, bit, fnma, Num.fma, if_true, if_false, Bool.false_eq_true]; push_cast
    generalize ((sgnI _ : ℤ) : ℝ) = σ at *
    rw [hS]
    linear_combination (-1 / 2) * this
  · refine Eq.trans (congrArg (fun t => pow4 (min t 0)) ?_) (pow4_min _)
    have := sgnI_sq (decide (-(-1 / 4 * S) < u 1 + -1 / 4 * S))
    simp only [flip_eq, kUnskew3, bit, fnma, Num.fma, if_true, if_false, Bool.false_eq_true]; push_cast
    generalize ((sgnI _ : ℤ) : ℝ) = σ at *
    rw [hS]
    linear_combination (-1 / 2) * this
  · refine Eq.trans (congrArg (fun t => pow4 (min t 0)) ?_) (pow4_min _)
    have := sgnI_sq (decide (-(-1 / 4 * S) < u 0 + -1 / 4 * S))
    simp only [flip_eq, kUnskew3, bit, fnma, Num.fma, if_true, if_false, Bool.false_eq_true]; push_cast
    generalize ((sgnI _ : ℤ) : ℝ) = σ at *
    rw [hS]
    linear_combination (-1 / 2) * this
  · refine congrArg (fun t => pow4 (max t 0)) ?_
    have := sgnI_sq (decide (u 0 + -1 / 4 * S < 0))
    simp only [flip_eq, kUnskew3, bit, fnma, Num.fma, if_true, if_false, Bool.false_eq_true]; push_cast
    generalize ((sgnI _ : ℤ) : ℝ) = σ at *
    rw [hS]
    linear_combination (3 / 8) * this
  · refine congrArg (fun t => pow4 (max t 0)) ?_
    have := sgnI_sq (decide (u 1 + -1 / 4 * S < 0))
    simp only [flip_eq, kUnskew3, bit, fnma, Num.fma, if_true, if_false, Bool.false_eq_true]; push_cast
    generalize ((sgnI _ : ℤ) : ℝ) = σ at *
    rw [hS]
    linear_combination (3 / 8) * this
  · refine congrArg (fun t => pow4 (max t 0)) ?_
    have := sgnI_sq (decide (u 2 + -1 / 4 * S < 0))
    simp only [flip_eq, kUnskew3, bit, fnma, Num.fma, if_true, if_false, Bool.false_eq_true]; push_cast
    generalize ((sgnI _ : ℤ) : ℝ) = σ at *
    rw [hS]
    linear_combination (3 / 8) * this
  have hb : step b u ![false, false, false] = b := by funext i; fin_cases i <;> simp [step, bit]
  rw [hb, contribution_eq ramp seed (3 / 4) p b, term3]
  simp only [hu, ← hS]
  rw [max_eq_left q0]
  have hfb : fnma (u 2 + kUnskew 3 * S) (u 2 + kUnskew 3 * S) (fnma (u 1 + kUnskew 3 * S) (u 1 + kUnskew 3 * S)
      (fnma (u 0 + kUnskew 3 * S) (u 0 + kUnskew 3 * S) (3 / 4))) * 0.5 = (3 / 4 - (u 0 ^ 2 + u 1 ^ 2 + u 2 ^ 2 - S ^ 2 / 4)) / 2 := by
    simp only [kUnskew3, fnma]; rw [hS]; ring
  rw [hfb]
  unfold pow4; ring

/-- `SuperSimplex::Gen` 3D is the sum of all contributions, up to a constant factor. -/
theorem super3_eq (ramp : Ramp) (seed : I32) (p : Fin 3 → ℝ) (h : Safe p) :
    super3 ramp seed (p 0) (p 1) (p 2) = gridNoise ramp seed (3 / 4) p / 16 := by
  rw [super3_sum ramp seed p h, gridNoise_eq ramp seed (3 / 4) p (Finset.univ.image (step (near3 p) (off3 p)))]
  · rw [Finset.sum_image fun _ _ _ _ e => step_injective _ _ e]
  · intro v hv
    have := far_of_not_step (off3 p) (off3_voronoi p) (fun i => v i - near3 p i) ?_
    · refine le_trans ?_ (this.trans (le_of_eq ?_))
      · norm_num
      · congr 1; funext i; rw [off3_eq]; push_cast; ring
    · intro m e
      refine hv (Finset.mem_image.mpr ⟨m, Finset.mem_univ _, ?_⟩)
      funext i
      have := congrFun e i
      simp only [step, Pi.zero_apply] at this ⊢
      omega
end
end FastNoise.Simplex
