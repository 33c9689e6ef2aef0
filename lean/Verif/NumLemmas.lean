import Verif.Num
import Mathlib.Tactic.Linarith
import Mathlib.Tactic.Ring
import Mathlib.Tactic.Positivity
import Mathlib.Tactic.FieldSimp
/-! # Lemmas on the numeric primitives -/
namespace FastNoise.Num

theorem roundEven_of_lt {x : ℝ} (h : x - ⌊x⌋ < 1 / 2) : roundEven x = ⌊x⌋ := by simp only [roundEven, if_pos h]
theorem roundEven_of_gt {x : ℝ} (h : 1 / 2 < x - ⌊x⌋) : roundEven x = ⌊x⌋ + 1 := by
  rw [roundEven, if_neg (by linarith), if_pos h]

/-- Rounding is within one half. -/
theorem abs_sub_roundEven (x : ℝ) : |x - roundEven x| ≤ 1 / 2 := by
  have h0 := Int.floor_le x
  have h1 := Int.lt_floor_add_one x
  rw [abs_le]
  unfold roundEven
  split
  · constructor <;> push_cast <;> linarith
  · split
    · constructor <;> push_cast <;> linarith
    · split <;> constructor <;> push_cast <;> linarith

/-- Ties aside, rounding is the unique integer within one half. -/
theorem roundEven_eq {x : ℝ} {n : ℤ} (h : |x - n| < 1 / 2) : roundEven x = n := by
  rw [abs_lt] at h
  by_cases hn : (n : ℝ) ≤ x
  · have : ⌊x⌋ = n := Int.floor_eq_iff.mpr ⟨hn, by linarith [h.2]⟩
    rw [roundEven_of_lt (by rw [this]; linarith [h.2]), this]
  · have : ⌊x⌋ = n - 1 := Int.floor_eq_iff.mpr ⟨by push_cast; linarith [h.1], by push_cast; linarith⟩
    rw [roundEven_of_gt (by rw [this]; push_cast; linarith [h.1]), this]; omega

theorem roundEven_int (n : ℤ) : roundEven n = n := roundEven_eq (by simp)

theorem roundEven_add_even (x : ℝ) (k : ℤ) : roundEven (x + (2 * k : ℤ)) = roundEven x + 2 * k := by
  unfold roundEven
  rw [Int.floor_add_intCast]
  have e : x + ((2 * k : ℤ) : ℝ) - ((⌊x⌋ + 2 * k : ℤ) : ℝ) = x - ⌊x⌋ := by push_cast; ring
  rw [e]
  have e2 : (⌊x⌋ + 2 * k) % 2 = ⌊x⌋ % 2 := by omega
  rw [e2]
  repeat' split
  all_goals omega

/-- Away from ties rounding commutes with integer shifts. -/
theorem roundEven_add_int (x : ℝ) (k : ℤ) (h : x - ⌊x⌋ ≠ 1 / 2) : roundEven (x + k) = roundEven x + k := by
  rcases lt_or_gt_of_ne h with h | h
  · rw [roundEven_of_lt h, roundEven_of_lt (by rw [Int.floor_add_intCast]; push_cast; linarith), Int.floor_add_intCast]
  · rw [roundEven_of_gt h, roundEven_of_gt (by rw [Int.floor_add_intCast]; push_cast; linarith), Int.floor_add_intCast]; omega

theorem lerp_zero (a b : ℝ) : lerp a b 0 = a := by simp [lerp, fma]
theorem lerp_one (a b : ℝ) : lerp a b 1 = b := by simp [lerp, fma]
/-- Interpolating between two values of an interval stays in it. -/
theorem lerp_mem {a b t lo hi : ℝ} (ha : lo ≤ a ∧ a ≤ hi) (hb : lo ≤ b ∧ b ≤ hi) (h0 : 0 ≤ t) (h1 : t ≤ 1) :
    lo ≤ lerp a b t ∧ lerp a b t ≤ hi := by
  have e : lerp a b t = (1 - t) * a + t * b := by unfold lerp fma; ring
  rw [e]
  have h2 : 0 ≤ 1 - t := by linarith
  constructor
  · nlinarith [mul_le_mul_of_nonneg_left ha.1 h2, mul_le_mul_of_nonneg_left hb.1 h0]
  · nlinarith [mul_le_mul_of_nonneg_left ha.2 h2, mul_le_mul_of_nonneg_left hb.2 h0]

theorem hermite_zero : interpHermite 0 = 0 := by simp [interpHermite]
theorem hermite_one : interpHermite 1 = 1 := by norm_num [interpHermite, fnma]
theorem quintic_zero : interpQuintic 0 = 0 := by simp [interpQuintic]
theorem quintic_one : interpQuintic 1 = 1 := by norm_num [interpQuintic, fma]

theorem hermite_mem {t : ℝ} (h0 : 0 ≤ t) (h1 : t ≤ 1) : 0 ≤ interpHermite t ∧ interpHermite t ≤ 1 := by
  unfold interpHermite fnma
  constructor
  · exact mul_nonneg (mul_nonneg h0 h0) (by linarith)
  · have : 1 - t * t * (-(t * 2) + 3) = (1 - t) ^ 2 * (1 + 2 * t) := by ring
    nlinarith [mul_nonneg (sq_nonneg (1 - t)) (by linarith : (0:ℝ) ≤ 1 + 2 * t)]

theorem quintic_mem {t : ℝ} (h0 : 0 ≤ t) (h1 : t ≤ 1) : 0 ≤ interpQuintic t ∧ interpQuintic t ≤ 1 := by
  unfold interpQuintic fma
  constructor
  · have : 0 ≤ t * (t * 6 + -15) + 10 := by nlinarith [sq_nonneg (t - 1), sq_nonneg (4 * t - 5)]
    exact mul_nonneg (by positivity) this
  · have e : 1 - t * t * t * (t * (t * 6 + -15) + 10) = (1 - t) ^ 3 * (1 + 3 * t + 6 * t ^ 2) := by ring
    have : 0 ≤ (1 - t) ^ 3 * (1 + 3 * t + 6 * t ^ 2) := mul_nonneg (pow_nonneg (by linarith) 3) (by positivity)
    linarith

/-! Distances -/

theorem sumSq_eq (pX : ℝ) (pos : Pos) : sumSq pX pos = ((pX :: pos).map (fun p => p ^ 2)).sum := by
  have : ∀ a : ℝ, pos.foldl (fun d p => fma p p d) a = a + (pos.map (fun p => p ^ 2)).sum := by
    induction pos with
    | nil => simp
    | cons b t ih => intro a; rw [List.foldl_cons, ih]; simp [fma]; ring
  unfold sumSq
  rw [this]; simp; ring

theorem foldPlus_eq (f : ℝ → ℝ) (pos : Pos) : foldPlus f pos = (pos.map f).sum := by
  induction pos with
  | nil => rfl
  | cons a t ih =>
    cases t with
    | nil => simp [foldPlus]
    | cons b u => rw [foldPlus, ih]; simp; simp

theorem hybrid_fold (a : ℝ) (pos : Pos) :
    pos.foldl (fun both p => both + fma p p |p|) a = a + (pos.map (fun p => p ^ 2 + |p|)).sum := by
  induction pos generalizing a with
  | nil => simp
  | cons b t ih => rw [List.foldl_cons, ih]; simp [fma]; ring

theorem fastLengthSqrt_eq (relaxed : Bool) (d : ℝ) (hd : 0 ≤ d) : fastLengthSqrt relaxed d = √d := by
  cases relaxed
  · simp [fastLengthSqrt]
  · unfold fastLengthSqrt
    rcases eq_or_lt_of_le hd with h | h
    · simp [← h]
    · have hs : 0 < √d := Real.sqrt_pos.mpr h
      have : d * (1 / √d) = √d := by
        field_simp
        exact (Real.sq_sqrt hd).symm
      rw [if_pos rfl, if_pos h.ne', this]

theorem foldMax_le (pos : Pos) (m b : ℝ) : pos.foldl (fun m p => max |p| m) m ≤ b ↔ m ≤ b ∧ ∀ p ∈ pos, |p| ≤ b := by
  induction pos generalizing m with
  | nil => simp
  | cons a t ih => rw [List.foldl_cons, ih]; simp; tauto

theorem le_foldMax (pos : Pos) (m : ℝ) : m ≤ pos.foldl (fun m p => max |p| m) m := ((foldMax_le pos m _).mp le_rfl).1

end FastNoise.Num
