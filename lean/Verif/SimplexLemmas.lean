import Verif.Simplex
import Verif.SimplexGeo
import Verif.LatticeLemmas
import Mathlib.Data.Pi.Interval
/-!
# Lemmas about simplex noise: contributions in skewed coordinates, continuity, and the code of `Simplex::Gen`
-/
namespace FastNoise.Simplex
open FastNoise.Hash FastNoise.Num FastNoise.Gradient FastNoise.Lattice

noncomputable section

variable {n : Nat}

/-! ## Contributions in skewed coordinates -/

/-- The contribution of grid point `v` at a position with skewed offset `u` from it. -/
def term (ramp : Ramp) (seed : I32) (r2 : ℝ) (u : Fin n → ℝ) (v : Fin n → ℤ) : ℝ :=
  pow4 (max (r2 - Q u) 0) * ramp (gridHash seed v) (List.ofFn (rampArg (unskew u)))

theorem pow4_eq (x : ℝ) : pow4 x = x ^ 4 := by unfold pow4; ring

theorem contribution_eq (ramp : Ramp) (seed : I32) (r2 : ℝ) (p : Fin n → ℝ) (v : Fin n → ℤ) :
    contribution ramp seed r2 p v = term ramp seed r2 (fun i => skewed p i - v i) v := by
  unfold contribution term
  rw [distSq_gridPoint, sub_gridPoint, pow4_eq]

theorem term_far (ramp : Ramp) (seed : I32) (r2 : ℝ) (u : Fin n → ℝ) (v : Fin n → ℤ) (h : r2 ≤ Q u) : term ramp seed r2 u v = 0 := by
  unfold term; rw [max_eq_right (by linarith)]; simp [pow4]

/-! ## Continuity -/

theorem skewed_continuous (i : Fin n) : Continuous fun p : Fin n → ℝ => skewed p i := by unfold skewed; fun_prop

/-- The ramp is a continuous function of the offset. -/
def RampCont (n : Nat) (ramp : Ramp) : Prop := ∀ h, Continuous fun u : Fin n → ℝ => ramp h (List.ofFn u)

theorem gradDot_rampCont (n : Nat) (ft : Feat) : RampCont n (gradDot ft) := by
  intro h
  have e : ∀ p : Fin n → ℝ, List.ofFn p = (List.ofFn fun (i : Fin n) (p : Fin n → ℝ) => p i).map (· p) := by
    intro p; rw [List.map_ofFn]; rfl
  simp only [e]
  refine gradDot_continuous ft _ _ ?_
  intro a ha
  obtain ⟨i, rfl⟩ := (List.mem_ofFn' _ _).mp ha
  fun_prop

theorem contribution_continuous (ramp : Ramp) (hc : RampCont n ramp) (seed : I32) (r2 : ℝ) (v : Fin n → ℤ) : Continuous fun p => contribution ramp seed r2 p v := by
  unfold contribution
  have hg : Continuous fun p : Fin n → ℝ => ramp (gridHash seed v) (List.ofFn (rampArg fun i => p i - gridPoint v i)) := by
    refine (hc (gridHash seed v)).comp ?_
    unfold rampArg mirror
    split_ifs <;> fun_prop
  have hd : Continuous fun p : Fin n → ℝ => distSq p (gridPoint v) := by unfold distSq; fun_prop
  exact Continuous.mul (by fun_prop) hg

theorem gridNoise_continuous (ramp : Ramp) (hc : RampCont n ramp) (seed : I32) (r2 : ℝ) : Continuous fun p : Fin n → ℝ => gridNoise ramp seed r2 p := by
  refine continuous_finsum (fun v => contribution_continuous ramp hc seed r2 v) ?_
  intro p0
  refine ⟨{p | ∀ i, |skewed p i - skewed p0 i| < 1}, ?_, ?_⟩
  · refine IsOpen.mem_nhds ?_ (by intro i; simp)
    rw [Set.ofPred_forall]
    refine isOpen_iInter_of_finite fun i => ?_
    have := skewed_continuous (n := n) i
    exact isOpen_lt (by fun_prop) continuous_const
  · refine (Set.finite_Icc (fun i => ⌊skewed p0 i - (2 * r2 + 2)⌋) (fun i : Fin n => ⌈skewed p0 i + (2 * r2 + 2)⌉)).subset ?_
    rintro v ⟨p, hv, hp⟩
    have hq : Q (fun i => skewed p i - v i) < r2 := by
      by_contra hcon
      exact hv (by simp only; rw [contribution_eq, term_far _ _ _ _ _ (not_lt.mp hcon)])
    have hb : ∀ i, |skewed p0 i - v i| ≤ 2 * r2 + 2 := by
      intro i
      have h1 := Q_ge_one (fun i => skewed p i - (v i : ℝ)) i
      have h2 : |skewed p i - v i| ≤ 2 * r2 + 1 := by
        rw [abs_le]; constructor <;> nlinarith [sq_nonneg (skewed p i - v i - 1), sq_nonneg (skewed p i - v i + 1)]
      have h3 := hp i
      have : skewed p0 i - v i = (skewed p i - v i) - (skewed p i - skewed p0 i) := by ring
      rw [this]; exact (abs_sub _ _).trans (by linarith)
    constructor
    · intro i
      have := abs_le.mp (hb i)
      refine Int.floor_le_iff.mpr ?_ |>.trans le_rfl
      push_cast; linarith
    · intro i
      have := abs_le.mp (hb i)
      have h : (v i : ℝ) ≤ ⌈skewed p0 i + (2 * r2 + 2)⌉ := le_trans (by linarith) (Int.le_ceil _)
      exact_mod_cast h

/-- Only finitely many grid points matter: those in `s`, if all others are too far away. -/
theorem gridNoise_eq (ramp : Ramp) (seed : I32) (r2 : ℝ) (p : Fin n → ℝ) (s : Finset (Fin n → ℤ))
    (h : ∀ v, v ∉ s → r2 ≤ Q fun i => skewed p i - v i) : gridNoise ramp seed r2 p = ∑ v ∈ s, contribution ramp seed r2 p v := by
  refine finsum_eq_sum_of_support_subset _ ?_
  intro v hv
  by_contra hcon
  exact hv (by rw [contribution_eq, term_far _ _ _ _ _ (h v hcon)])

/-! ## Constants -/

theorem sqrt3_sq : √3 * √3 = (3 : ℝ) := Real.mul_self_sqrt (by norm_num)
theorem sqrt5_sq : √5 * √5 = (5 : ℝ) := Real.mul_self_sqrt (by norm_num)
theorem sqrt3_pos : (0 : ℝ) < √3 := by positivity
theorem sqrt5_pos : (0 : ℝ) < √5 := by positivity

theorem kSkew2 : kSkew 2 = stretch 2 := by
  have := sqrt3_sq; have := sqrt3_pos
  simp only [kSkew, stretch, if_pos]
  norm_num
  field_simp; linarith

theorem kSkew3 : kSkew 3 = stretch 3 := by
  have : √((3 : ℝ) + 1) = 2 := by rw [show (3 : ℝ) + 1 = 2 ^ 2 by norm_num, Real.sqrt_sq (by norm_num)]
  simp only [kSkew, stretch]
  norm_num
  norm_num at this
  rw [this]; norm_num

theorem kSkew4 : kSkew 4 = stretch 4 := by
  have := sqrt5_sq; have := sqrt5_pos
  simp only [kSkew, stretch]
  norm_num
  field_simp; linarith

theorem kUnskew2 : kUnskew 2 = squash 2 := by
  have := sqrt3_sq; have := sqrt3_pos
  simp only [kUnskew, squash, if_pos]
  norm_num
  field_simp; linarith

theorem kUnskew4 : kUnskew 4 = squash 4 := by
  have := sqrt5_sq; have := sqrt5_pos
  simp only [kUnskew, squash]
  norm_num
  field_simp; linarith

theorem squash3 : squash 3 = -1 / 6 := by
  have : √((3 : ℝ) + 1) = 2 := by rw [show (3 : ℝ) + 1 = 2 ^ 2 by norm_num, Real.sqrt_sq (by norm_num)]
  simp only [squash]
  norm_num
  norm_num at this
  rw [this]; norm_num

theorem kUnskew3 : kUnskew 3 = -1 / 2 := by norm_num [kUnskew]

theorem kUnskew2_sq : kUnskew 2 ^ 2 = -kUnskew 2 - 1 / 6 := by
  have := squash_sq (n := 2) (by norm_num)
  rw [kUnskew2]; norm_num at this; linarith

theorem kUnskew4_sq : kUnskew 4 ^ 2 = -kUnskew 4 / 2 - 1 / 20 := by
  have := squash_sq (n := 4) (by norm_num)
  rw [kUnskew4]; norm_num at this; linarith

theorem kUnskew2_falloff : kUnskew 2 * (-4 * (√3 + 2) / (√3 + 3)) = 2 / 3 := by
  have := sqrt3_sq; have := sqrt3_pos
  simp only [kUnskew, if_pos]
  field_simp; nlinarith

theorem kUnskew4_falloff : kUnskew 4 * (-4 * (√5 + 3) / (√5 + 5)) = 2 / 5 := by
  have := sqrt5_sq; have := sqrt5_pos
  have e : kUnskew 4 = -1 / (√5 + 5) := by norm_num [kUnskew]
  rw [e]; field_simp; nlinarith

/-! ## The terms, spelled out -/

theorem term2 (ramp : Ramp) (seed : I32) (r2 : ℝ) (u : Fin 2 → ℝ) (v : Fin 2 → ℤ) :
    term ramp seed r2 u v = pow4 (max (r2 - (u 0 ^ 2 + u 1 ^ 2 - (u 0 + u 1) ^ 2 / 3)) 0) *
      ramp (hashPrimes seed [BitVec.ofInt 32 (v 0) * primeX, BitVec.ofInt 32 (v 1) * primeY]) [u 0 + kUnskew 2 * (u 0 + u 1), u 1 + kUnskew 2 * (u 0 + u 1)] := by
  have hq : Q u = u 0 ^ 2 + u 1 ^ 2 - (u 0 + u 1) ^ 2 / 3 := by
    simp only [Q, Fin.sum_univ_two]; norm_num
  rw [term, hq, kUnskew2]
  simp [List.ofFn_succ, gradDot, gridHash, primed, primes, rampArg, unskew, Fin.sum_univ_two]

theorem term3 (ramp : Ramp) (seed : I32) (r2 : ℝ) (u : Fin 3 → ℝ) (v : Fin 3 → ℤ) :
    term ramp seed r2 u v = pow4 (max (r2 - (u 0 ^ 2 + u 1 ^ 2 + u 2 ^ 2 - (u 0 + u 1 + u 2) ^ 2 / 4)) 0) *
      ramp (hashPrimes seed [BitVec.ofInt 32 (v 0) * primeX, BitVec.ofInt 32 (v 1) * primeY, BitVec.ofInt 32 (v 2) * primeZ]) [u 0 + kUnskew 3 * (u 0 + u 1 + u 2), u 1 + kUnskew 3 * (u 0 + u 1 + u 2), u 2 + kUnskew 3 * (u 0 + u 1 + u 2)] := by
  have hq : Q u = u 0 ^ 2 + u 1 ^ 2 + u 2 ^ 2 - (u 0 + u 1 + u 2) ^ 2 / 4 := by
    simp only [Q, Fin.sum_univ_three]; norm_num
  have hr : ∀ i, rampArg (unskew u) i = u i + kUnskew 3 * (u 0 + u 1 + u 2) := by
    intro i
    simp only [rampArg, if_pos, mirror, unskew, Fin.sum_univ_three, squash3, kUnskew3]
    push_cast; ring
  rw [term, hq]
  simp [List.ofFn_succ, gradDot, gridHash, primed, primes, hr]

theorem term4 (ramp : Ramp) (seed : I32) (r2 : ℝ) (u : Fin 4 → ℝ) (v : Fin 4 → ℤ) :
    term ramp seed r2 u v = pow4 (max (r2 - (u 0 ^ 2 + u 1 ^ 2 + u 2 ^ 2 + u 3 ^ 2 - (u 0 + u 1 + u 2 + u 3) ^ 2 / 5)) 0) *
      ramp (hashPrimes seed [BitVec.ofInt 32 (v 0) * primeX, BitVec.ofInt 32 (v 1) * primeY, BitVec.ofInt 32 (v 2) * primeZ, BitVec.ofInt 32 (v 3) * primeW]) [u 0 + kUnskew 4 * (u 0 + u 1 + u 2 + u 3), u 1 + kUnskew 4 * (u 0 + u 1 + u 2 + u 3), u 2 + kUnskew 4 * (u 0 + u 1 + u 2 + u 3), u 3 + kUnskew 4 * (u 0 + u 1 + u 2 + u 3)] := by
  have hq : Q u = u 0 ^ 2 + u 1 ^ 2 + u 2 ^ 2 + u 3 ^ 2 - (u 0 + u 1 + u 2 + u 3) ^ 2 / 5 := by
    simp only [Q, Fin.sum_univ_four]; norm_num
  rw [term, hq, kUnskew4]
  simp [List.ofFn_succ, gradDot, gridHash, primed, primes, rampArg, unskew, Fin.sum_univ_four]

end
end FastNoise.Simplex
