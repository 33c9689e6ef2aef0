import Verif.FloatModifiers
import Verif.FloatPerlinLemmas
import Verif.ModifiersLemmas
/-!
# Lemmas for the blends and modifiers in binary32 arithmetic
-/
namespace FastNoise.F32
open FastNoise.Hash FastNoise.Num FastNoise.Basic
open FastNoise.Modifiers (Op Interpolation fltMin)

noncomputable section

/-! ## Sums and differences of floats -/

theorem rep_tiny {x : ℝ} (h : Rep x) : ∃ n : ℤ, x = n * 2 ^ (-149 : ℤ) := by
  obtain ⟨m, e, -, he, rfl⟩ := h
  refine ⟨m * 2 ^ (e + 149).toNat, ?_⟩
  push_cast
  rw [mul_assoc, ← zpow_natCast, ← zpow_add₀ (by norm_num), Int.toNat_of_nonneg (by omega)]
  congr 2; ring

/-- A sum or difference of floats has relative error `2^-24`, subnormal or not. -/
theorem sub_rel {a b : ℝ} (ha : Rep a) (hb : Rep b) : |sub a b - (a - b)| ≤ |a - b| / 2 ^ 24 := by
  by_cases h : 2 ^ (-126 : ℤ) ≤ |a - b|
  · exact fl_rel h
  push Not at h
  obtain ⟨n, hn⟩ := rep_tiny ha
  obtain ⟨k, hk⟩ := rep_tiny hb
  have e : a - b = ((n - k : ℤ) : ℝ) * 2 ^ (-149 : ℤ) := by rw [hn, hk]; push_cast; ring
  have hr : Rep (a - b) := by
    refine ⟨n - k, -149, ?_, le_rfl, e⟩
    rw [e, abs_mul, abs_of_pos (two_zpow_pos _), show (2 : ℝ) ^ (-126 : ℤ) = 2 ^ 23 * 2 ^ (-149 : ℤ) by norm_num] at h
    have := lt_of_mul_lt_mul_right h (two_zpow_pos _).le
    have h' : |n - k| < 2 ^ 23 := by exact_mod_cast this
    linarith
  unfold sub
  rw [fl_rep hr, sub_self, abs_zero]; positivity

theorem add_rel {a b : ℝ} (ha : Rep a) (hb : Rep b) : |add a b - (a + b)| ≤ |a + b| / 2 ^ 24 := by
  have := sub_rel ha (rep_neg hb)
  unfold sub at this
  unfold add
  rw [sub_neg_eq_add] at this
  exact this

theorem sub_self' (a : ℝ) : sub a a = 0 := by unfold sub; rw [_root_.sub_self, fl_zero]

theorem sub_pos' {a b : ℝ} (ha : Rep a) (hb : Rep b) (h : b < a) : 0 < sub a b := by
  have := sub_rel ha hb
  have hp : 0 < a - b := by linarith
  rw [abs_of_pos hp] at this
  have := (abs_le.mp this).1
  norm_num at this
  linarith

theorem sub_swap (a b : ℝ) : sub a b = -sub b a := by unfold sub; rw [← fl_neg]; congr 1; ring

theorem rep_sub (a b : ℝ) : Rep (sub a b) := rep_fl _
theorem rep_mul (a b : ℝ) : Rep (mul a b) := rep_fl _
theorem rep_div (a b : ℝ) : Rep (div a b) := rep_fl _
theorem rep_half : Rep (0.5 : ℝ) := by have := rep_pow (e := -1) (by norm_num); norm_num at this ⊢; exact this
theorem rep_abs {a : ℝ} (h : Rep a) : Rep |a| := by
  rcases abs_choice a with e | e <;> rw [e]
  · exact h
  · exact rep_neg h
theorem rep_max {a b : ℝ} (ha : Rep a) (hb : Rep b) : Rep (max a b) := by
  rcases max_choice a b with e | e <;> rw [e] <;> assumption
theorem rep_min {a b : ℝ} (ha : Rep a) (hb : Rep b) : Rep (min a b) := by
  rcases min_choice a b with e | e <;> rw [e] <;> assumption
theorem rep_fltMin : Rep fltMin := rep_pow (by norm_num)

theorem div_mono {a b c : ℝ} (hc : 0 < c) (h : a ≤ b) : div a c ≤ div b c := fl_mono (div_le_div_of_nonneg_right h hc.le)
theorem div_nonneg' {a c : ℝ} (hc : 0 ≤ c) (h : 0 ≤ a) : 0 ≤ div a c := le_fl rep_zero (_root_.div_nonneg h hc)
theorem div_le_one' {a c : ℝ} (hc : 0 < c) (h : a ≤ c) : div a c ≤ 1 := fl_le rep_one ((div_le_one hc).mpr h)
theorem one_le_div' {a c : ℝ} (hc : 0 < c) (h : c ≤ a) : 1 ≤ div a c := le_fl rep_one ((one_le_div hc).mpr h)
theorem div_nonpos' {a c : ℝ} (hc : 0 ≤ c) (h : a ≤ 0) : div a c ≤ 0 := fl_le rep_zero (div_nonpos_of_nonpos_of_nonneg h hc)
theorem div_self' {a : ℝ} (h : a ≠ 0) : div a a = 1 := by unfold div; rw [_root_.div_self h, fl_rep rep_one]

/-! ## Interpolation -/

theorem quintic_zero (L : Level) : interpQuintic L 0 = 0 := by
  unfold interpQuintic mul; simp [fl_zero]

theorem hermite_one (L : Level) : interpHermite L 1 = 1 := by
  have e : fnma L 1 2 3 = 1 := by
    rw [fnma_eq L rep_one]; norm_num; exact fl_rep rep_one
  unfold interpHermite mul
  rw [e, mul_one, mul_one, fl_rep rep_one, fl_rep rep_one]

theorem rep_intCast (n : ℤ) (h : |n| ≤ 2 ^ 24) : fl (n : ℝ) = n := fl_rep (rep_int h)

theorem quintic_one (L : Level) : interpQuintic L 1 = 1 := by
  have h6 : fl (6 : ℝ) = 6 := by exact_mod_cast rep_intCast 6 (by norm_num)
  have h9 : fl (-9 : ℝ) = -9 := by exact_mod_cast rep_intCast (-9) (by norm_num)
  have h1 : fl (1 : ℝ) = 1 := fl_rep rep_one
  have e1 : fma L 1 6 (-15) = -9 := by
    unfold fma add mul; rw [one_mul, h6, show (6 : ℝ) + -15 = -9 by norm_num, h9]; simp
  have e2 : fma L 1 (-9) 10 = 1 := by
    unfold fma add mul; rw [one_mul, h9, show (-9 : ℝ) + 10 = 1 by norm_num, h1]; simp
  unfold interpQuintic mul
  rw [e1, e2]; simp only [mul_one, h1]

/-- `Lerp` at 1 is `a + (b - a)`, both rounded, on every level. -/
theorem lerp_one (L : Level) (a b : ℝ) : lerp L a b 1 = fl (sub b a + a) := by
  unfold lerp fma add mul
  rw [one_mul, fl_rep (rep_sub b a)]; simp

theorem fma_mono (L : Level) {t u d c : ℝ} (hd : 0 ≤ d) (h : t ≤ u) : fma L t d c ≤ fma L u d c := by
  have h1 : t * d ≤ u * d := mul_le_mul_of_nonneg_right h hd
  unfold fma add mul
  split
  · exact fl_mono (by linarith)
  · exact fl_mono (by linarith [fl_mono h1])

/-- `Lerp` grows with the factor if `a ≤ b`. -/
theorem lerp_mono (L : Level) {a b t u : ℝ} (h : a ≤ b) (htu : t ≤ u) : lerp L a b t ≤ lerp L a b u :=
  fma_mono L (le_fl rep_zero (by linarith)) htu

/-- `Lerp` with a factor slightly above 1. -/
theorem abs_lerp_over (L : Level) {k : ℤ} (hk : -120 ≤ k) {a b t : ℝ} (ha : |a| ≤ 2 ^ k) (hb : |b| ≤ 2 ^ k) (t0 : 0 ≤ t) (t1 : t ≤ 1 + 80 * U) :
    |lerp L a b t| ≤ 2 ^ k * (1 + 2 ^ (-16 : ℤ)) := by
  have hpk := two_zpow_pos k
  rcases le_total t 1 with h1 | h1
  · refine (abs_lerp_le L (by omega) ha hb t0 h1).trans ?_
    norm_num; linarith
  have hba : |b - a| ≤ 2 ^ (k + 1) := by
    rw [zpow_add_one₀ (by norm_num)]
    have := abs_sub b a
    linarith
  have e1 := fl_err_le (k := k + 1) (by omega) hba
  have hd : |sub b a| ≤ 2 ^ (k + 1) := by
    rw [abs_le] at hba ⊢
    exact fl_mem (rep_neg (rep_pow (by omega))) (rep_pow (by omega)) hba
  rw [show k + 1 - 25 = k + (-24) by ring, zpow_add₀ (by norm_num)] at e1
  rw [zpow_add_one₀ (by norm_num)] at hd
  have hU : 80 * U ≤ 1 / 400000 := by unfold U; norm_num
  have ht : |(t - 1) * sub b a| ≤ 2 ^ k * (1 / 200000) := by
    rw [abs_mul, abs_of_nonneg (by linarith : 0 ≤ t - 1)]
    calc _ ≤ (1 / 400000) * (2 ^ k * 2) := mul_le_mul (by linarith) hd (abs_nonneg _) (by norm_num)
      _ = _ := by ring
  have hdd : |sub b a - (b - a)| ≤ 2 ^ k * 2 ^ (-24 : ℤ) := e1
  have A := abs_le.mp ht
  have B := abs_le.mp hdd
  have C := abs_le.mp hb
  norm_num at B
  have main : |t * sub b a + a| ≤ 2 ^ k * (1 + 6 / 1000000) := by
    have e : t * sub b a + a = (t - 1) * sub b a + (sub b a - (b - a)) + b := by ring
    rw [e, abs_le]; constructor <;> linarith
  have big : ∀ {x : ℝ} {c : ℝ}, |x| ≤ 2 ^ k * c → c ≤ 4 → |fl x - x| ≤ 2 ^ k * (1 / 2 ^ 23) := by
    intro x c hx hc
    have := fl_err_le (x := x) (k := k + 2) (by omega) (by
      rw [zpow_add₀ (by norm_num)]; norm_num
      nlinarith)
    rw [show k + 2 - 25 = k + (-23) by ring, zpow_add₀ (by norm_num)] at this
    norm_num at this ⊢; exact this
  unfold lerp fma add mul
  have hg : (2 : ℝ) ^ (-16 : ℤ) = 1 / 65536 := by norm_num
  rw [hg]
  have M := abs_le.mp main
  split
  · have E := abs_le.mp (big main (by norm_num))
    rw [abs_le]; constructor <;> linarith
  · have hp : |t * sub b a| ≤ 2 ^ k * 3 := by
      rw [abs_mul, abs_of_nonneg t0]
      calc _ ≤ (3 / 2) * (2 ^ k * 2) := mul_le_mul (by linarith) hd (abs_nonneg _) (by norm_num)
        _ = _ := by ring
    have E1 := abs_le.mp (big hp (by norm_num))
    have m2 : |fl (t * sub b a) + a| ≤ 2 ^ k * (1 + 7 / 1000000) := by
      rw [abs_le]; constructor <;> linarith
    have E2 := abs_le.mp (big m2 (by norm_num))
    have M2 := abs_le.mp m2
    rw [abs_le]; constructor <;> linarith

/-- The blend factor of a quintic Fade. -/
theorem quintic_factor (L : Level) {t : ℝ} (t0 : 0 ≤ t) (t1 : t ≤ 1) : 0 ≤ interpQuintic L t ∧ interpQuintic L t ≤ 1 + 80 * U := by
  constructor
  · unfold interpQuintic
    have h3 : 0 ≤ mul (mul t t) t := le_fl rep_zero (mul_nonneg (le_fl rep_zero (mul_self_nonneg t)) t0)
    have hq : 0 ≤ fma L t (fma L t 6 (-15)) 10 := by
      have r15 : Rep (-15 : ℝ) := by exact_mod_cast rep_int (n := -15) (by norm_num)
      have r9 : Rep (-9 : ℝ) := by exact_mod_cast rep_int (n := -9) (by norm_num)
      have h1 : -15 ≤ fma L t 6 (-15) := by
        unfold fma add mul
        split
        · exact le_fl r15 (by linarith)
        · exact le_fl r15 (by have := le_fl rep_zero (by linarith : (0 : ℝ) ≤ t * 6); linarith)
      have h1' : fma L t 6 (-15) ≤ 6 * t - 15 + 64 * U := by
        have r6 : Rep (6 : ℝ) := by exact_mod_cast rep_int (n := 6) (by norm_num)
        have hu := U_pos
        unfold fma add mul
        split
        · have := abs_le.mp (rnd16 (x := t * 6 + -15) (by rw [abs_le]; constructor <;> linarith))
          linarith
        · have e1 := abs_le.mp (rnd8 (x := t * 6) (by rw [abs_le]; constructor <;> linarith))
          have b1 := fl_mem rep_zero r6 (x := t * 6) ⟨by linarith, by linarith⟩
          have := abs_le.mp (rnd16 (x := fl (t * 6) + -15) (by rw [abs_le]; constructor <;> linarith [b1.1, b1.2]))
          linarith
      have hlow : -(75 / 8) - 1 / 100 ≤ t * fma L t 6 (-15) := by
        -- `t (6 t - 15)` is at least `-9` on [0, 1]; the rounding adds little
        have hu : 64 * U ≤ 1 / 100000 := by unfold U; norm_num
        have hlb : 6 * t - 15 - 64 * U ≤ fma L t 6 (-15) := by
          have hu := U_pos
          have r6 : Rep (6 : ℝ) := by exact_mod_cast rep_int (n := 6) (by norm_num)
          unfold fma add mul
          split
          · have := abs_le.mp (rnd16 (x := t * 6 + -15) (by rw [abs_le]; constructor <;> linarith))
            linarith
          · have e1 := abs_le.mp (rnd8 (x := t * 6) (by rw [abs_le]; constructor <;> linarith))
            have b1 := fl_mem rep_zero r6 (x := t * 6) ⟨by linarith, by linarith⟩
            have := abs_le.mp (rnd16 (x := fl (t * 6) + -15) (by rw [abs_le]; constructor <;> linarith [b1.1, b1.2]))
            linarith
        have := mul_le_mul_of_nonneg_left hlb t0
        nlinarith
      have hup : t * fma L t 6 (-15) ≤ 0 := by
        have hu : 64 * U ≤ 1 / 100000 := by unfold U; norm_num
        exact mul_nonpos_of_nonneg_of_nonpos t0 (by linarith)
      rcases L with ⟨f⟩
      have key : ∀ z : ℝ, -(75 / 8) - 1 / 50 ≤ z → 0 ≤ fl (z + 10) := fun z hz => le_fl rep_zero (by linarith)
      generalize hz : t * fma ⟨f⟩ t 6 (-15) = z at *
      unfold fma add mul
      unfold fma add mul at hz
      split
      · rw [if_pos (by assumption)] at hz; rw [hz]; exact key z (by linarith)
      · rw [if_neg (by assumption)] at hz; rw [hz]
        have := abs_le.mp (rnd16 (x := z) (by rw [abs_le]; constructor <;> linarith))
        have hu : 16 * U ≤ 1 / 100 := by unfold U; norm_num
        exact key _ (by linarith)
    exact le_fl rep_zero (mul_nonneg h3 hq)
  · have := abs_le.mp (quintic_err L t0 t1)
    have h := (quintic_mem t0 t1).2
    linarith

end
end FastNoise.F32
