import Verif.Modifiers
import Verif.NumLemmas
/-! Lemmas for modifiers and blends. -/
namespace FastNoise.Modifiers
open FastNoise.Hash FastNoise.Num FastNoise.Basic

theorem roundEven_mono {x y : ℝ} (h : x ≤ y) : roundEven x ≤ roundEven y := by
  by_contra hc
  push Not at hc
  have h1 := abs_le.mp (abs_sub_roundEven x)
  have h2 := abs_le.mp (abs_sub_roundEven y)
  have h3 : ((roundEven y : ℝ)) + 1 ≤ roundEven x := by exact_mod_cast hc
  have : x = y := by linarith
  rw [this] at hc
  exact lt_irrefl _ hc

/-! ## Terrace -/

/-- The shape of one smoothed step around its centre. -/
noncomputable def stepShape (recip u : ℝ) : ℝ := (if u < 0 then -1 else 1) * max 0 (1 / 2 - (1 / 2 - |u|) * recip)

theorem terraceDiff_eq (r s recip : ℝ) : terraceDiff r s recip = if s = r then stepShape recip 0 * 0 + terraceDiff r r recip else stepShape recip (s - r) := by
  split_ifs with h
  · rw [h]; simp
  · unfold terraceDiff stepShape
    have e : |r - s| = |s - r| := abs_sub_comm _ _
    simp only [decide_eq_true_eq, e]
    have key : (1 / 2 : ℝ) - min ((0.5 - |s - r|) * recip) 0.5 = max 0 (1 / 2 - (1 / 2 - |s - r|) * recip) := by
      rw [show (0.5 : ℝ) = 1 / 2 by norm_num]
      rcases le_total ((1 / 2 - |s - r|) * recip) (1 / 2) with h1 | h1
      · rw [min_eq_left h1, max_eq_right (by linarith)]
      · rw [min_eq_right h1, max_eq_left (by linarith)]; ring
    rw [← key, show (0.5 : ℝ) = 1 / 2 by norm_num]
    rcases lt_or_gt_of_ne h with h1 | h1
    · rw [if_neg (by linarith), if_pos (by linarith)]; ring
    · rw [if_pos (by linarith), if_neg (by linarith)]; ring

theorem terraceDiff_self (r recip : ℝ) (h : 1 ≤ recip) : terraceDiff r r recip = 0 := by
  unfold terraceDiff
  rw [show (0.5 : ℝ) = 1 / 2 by norm_num]
  simp only [sub_self, lt_irrefl, decide_false, Bool.false_eq_true, if_false, abs_zero, sub_zero]
  rw [min_eq_right (by linarith)]; ring

theorem stepShape_zero (recip : ℝ) (h : 1 ≤ recip) : stepShape recip 0 = 0 := by
  unfold stepShape
  rw [abs_zero, max_eq_left (by linarith)]; ring

theorem terraceDiff_shape (r s recip : ℝ) (h : 1 ≤ recip) : terraceDiff r s recip = stepShape recip (s - r) := by
  rw [terraceDiff_eq]
  split_ifs with e
  · rw [e, terraceDiff_self _ _ h, sub_self, stepShape_zero _ h]; ring
  · rfl

theorem stepShape_abs (recip u : ℝ) (h : 1 ≤ recip) (hu : |u| ≤ 1 / 2) : |stepShape recip u| ≤ |u| ∧ 0 ≤ stepShape recip u * u := by
  have hm : max 0 (1 / 2 - (1 / 2 - |u|) * recip) ≤ |u| := max_le (abs_nonneg _) (by nlinarith)
  have h0 : 0 ≤ max 0 (1 / 2 - (1 / 2 - |u|) * recip) := le_max_left _ _
  unfold stepShape
  generalize max 0 (1 / 2 - (1 / 2 - |u|) * recip) = m at *
  split_ifs with hs
  · rw [neg_one_mul, abs_neg, abs_of_nonneg h0]
    exact ⟨hm, by nlinarith⟩
  · rw [one_mul, abs_of_nonneg h0]
    exact ⟨hm, mul_nonneg h0 (by linarith)⟩

/-- Monotone and `recip`-Lipschitz. -/
theorem stepShape_lip (recip u v : ℝ) (h : 1 ≤ recip) (hu : |u| ≤ 1 / 2) (hv : |v| ≤ 1 / 2) (huv : u ≤ v) :
    stepShape recip u ≤ stepShape recip v ∧ stepShape recip v - stepShape recip u ≤ recip * (v - u) := by
  have key : ∀ a b : ℝ, a ≤ b → max 0 a ≤ max 0 b ∧ max 0 b - max 0 a ≤ b - a := by
    intro a b hab
    refine ⟨max_le_max le_rfl hab, ?_⟩
    rcases le_total a 0 with h1 | h1 <;> rcases le_total b 0 with h2 | h2
    · rw [max_eq_left h1, max_eq_left h2]; linarith
    · rw [max_eq_left h1, max_eq_right h2]; linarith
    · rw [max_eq_right h1, max_eq_left h2]; linarith
    · rw [max_eq_right h1, max_eq_right h2]
  have e : ∀ a b : ℝ, (1 / 2 - (1 / 2 - b) * recip) - (1 / 2 - (1 / 2 - a) * recip) = recip * (b - a) := by intros; ring
  have bd : ∀ a : ℝ, 0 ≤ a → a ≤ 1 / 2 → max 0 (1 / 2 - (1 / 2 - a) * recip) ≤ recip * a := by
    intro a h0 h1; exact max_le (by positivity) (by nlinarith)
  have p0 : ∀ a : ℝ, 0 ≤ max 0 (1 / 2 - (1 / 2 - a) * recip) := fun a => le_max_left _ _
  unfold stepShape
  by_cases hu0 : u < 0 <;> by_cases hv0 : v < 0
  · rw [if_pos hu0, if_pos hv0, abs_of_neg hu0, abs_of_neg hv0]
    have := key (1 / 2 - (1 / 2 - -v) * recip) (1 / 2 - (1 / 2 - -u) * recip) (by nlinarith)
    rw [e] at this
    constructor <;> nlinarith
  · rw [if_pos hu0, if_neg hv0, abs_of_neg hu0, abs_of_nonneg (not_lt.mp hv0)]
    rw [abs_of_neg hu0] at hu
    rw [abs_of_nonneg (not_lt.mp hv0)] at hv
    have := bd (-u) (by linarith) hu
    have := bd v (not_lt.mp hv0) hv
    have := p0 (-u); have := p0 v
    constructor <;> nlinarith
  · linarith
  · rw [if_neg hu0, if_neg hv0, abs_of_nonneg (not_lt.mp hu0), abs_of_nonneg (not_lt.mp hv0)]
    have := key (1 / 2 - (1 / 2 - u) * recip) (1 / 2 - (1 / 2 - v) * recip) (by nlinarith)
    rw [e] at this
    constructor <;> nlinarith

/-- A smoothed staircase with unit steps. -/
noncomputable def stairs (recip s : ℝ) : ℝ := roundEven s + stepShape recip (s - roundEven s)

theorem stairs_lip (recip s t : ℝ) (h : 1 ≤ recip) (hst : s ≤ t) : stairs recip s ≤ stairs recip t ∧ stairs recip t - stairs recip s ≤ recip * (t - s) := by
  have hs := abs_sub_roundEven s
  have ht := abs_sub_roundEven t
  have hn := roundEven_mono hst
  unfold stairs
  rcases eq_or_lt_of_le hn with e | hlt
  · rw [e] at hs ⊢
    have := stepShape_lip recip (s - roundEven t) (t - roundEven t) h hs ht (by linarith)
    constructor
    · linarith [this.1]
    · have := this.2; nlinarith
  · have h1 : ((roundEven s : ℝ)) + 1 ≤ roundEven t := by exact_mod_cast hlt
    generalize (roundEven s : ℝ) = n at *
    generalize (roundEven t : ℝ) = m at *
    have hs' := abs_le.mp hs
    have ht' := abs_le.mp ht
    have half : ∀ a : ℝ, |a| = 1 / 2 → |a| ≤ 1 / 2 := fun a h => h.le
    have top : stepShape recip (1 / 2) = 1 / 2 := by
      unfold stepShape; rw [if_neg (by norm_num), abs_of_pos (by norm_num)]; norm_num
    have bot : stepShape recip (-(1 / 2)) = -(1 / 2) := by
      unfold stepShape; rw [if_pos (by norm_num), abs_neg, abs_of_pos (by norm_num)]; norm_num
    have a1 := stepShape_lip recip (s - n) (1 / 2) h hs (half _ (abs_of_pos (by norm_num))) (by linarith)
    have a2 := stepShape_lip recip (-(1 / 2)) (t - m) h (half _ (by rw [abs_neg, abs_of_pos (by norm_num)])) ht (by linarith)
    rw [top] at a1
    rw [bot] at a2
    constructor
    · linarith [a1.1, a2.1]
    · nlinarith [a1.2, a2.2]

/-! ## Smooth minimum -/

/-- `min` minus a bump of height s/6 and half-width s. -/
theorem minSmoothFn_eq (a b s : ℝ) : minSmoothFn a b s =
    min a b - max fltMin |s| / 6 * (max 0 (1 - |a - b| / max fltMin |s|)) ^ 3 := by
  have hp : 0 < max fltMin |s| := lt_of_lt_of_le (by unfold fltMin; positivity) (le_max_left _ _)
  unfold minSmoothFn
  simp only [fnma]
  generalize max fltMin |s| = k at *
  have e : max (k - |a - b|) 0 * (1 / k) = max 0 (1 - |a - b| / k) := by
    rcases le_total |a - b| k with h | h
    · rw [max_eq_left (by linarith), max_eq_right (by rw [sub_nonneg, div_le_one hp]; exact h)]; field_simp
    · rw [max_eq_right (by linarith), max_eq_left (by rw [sub_nonpos, one_le_div hp]; exact h)]; ring
  rw [e]; ring

/-- The bump as a function of the distance: decreasing, slope at least -1/2. -/
theorem bump_lip {k x y : ℝ} (hk : 0 < k) (hx : 0 ≤ x) (hxy : x ≤ y) :
    0 ≤ k / 6 * (max 0 (1 - x / k)) ^ 3 - k / 6 * (max 0 (1 - y / k)) ^ 3 ∧
    k / 6 * (max 0 (1 - x / k)) ^ 3 - k / 6 * (max 0 (1 - y / k)) ^ 3 ≤ (y - x) / 2 := by
  have hm : max 0 (1 - y / k) ≤ max 0 (1 - x / k) := max_le_max le_rfl (by have := div_le_div_of_nonneg_right hxy hk.le; linarith)
  have h0 : 0 ≤ max 0 (1 - y / k) := le_max_left _ _
  have h1 : max 0 (1 - x / k) ≤ 1 := max_le (by norm_num) (by have := div_nonneg hx hk.le; linarith)
  have hd : max 0 (1 - x / k) - max 0 (1 - y / k) ≤ (y - x) / k := by
    have e : (y - x) / k = (1 - x / k) - (1 - y / k) := by ring
    rw [e]
    rcases le_total 0 (1 - y / k) with c | c
    · rw [max_eq_right c, max_eq_right]
      have := div_le_div_of_nonneg_right hxy hk.le; linarith
    · rw [max_eq_left c]
      rcases le_total 0 (1 - x / k) with c' | c'
      · rw [max_eq_right c']; linarith
      · rw [max_eq_left c']; have := div_le_div_of_nonneg_right hxy hk.le; linarith
  generalize max 0 (1 - x / k) = p at *
  generalize max 0 (1 - y / k) = q at *
  have hc : p ^ 3 - q ^ 3 = (p - q) * (p ^ 2 + p * q + q ^ 2) := by ring
  have hq : 0 ≤ p ^ 2 + p * q + q ^ 2 := by nlinarith
  have hq3 : p ^ 2 + p * q + q ^ 2 ≤ 3 := by nlinarith
  have ek : k * ((y - x) / k) = y - x := by field_simp
  constructor
  · have : 0 ≤ (p - q) * (p ^ 2 + p * q + q ^ 2) := mul_nonneg (by linarith) hq
    have : 0 ≤ k / 6 * (p ^ 3 - q ^ 3) := mul_nonneg (by linarith) (by rw [hc]; exact this)
    linarith
  · have : (p - q) * (p ^ 2 + p * q + q ^ 2) ≤ (p - q) * 3 := mul_le_mul_of_nonneg_left hq3 (by linarith)
    have h2 : k * (p - q) ≤ y - x := by rw [← ek]; exact mul_le_mul_of_nonneg_left hd hk.le
    have : k / 6 * (p ^ 3 - q ^ 3) ≤ k / 6 * ((p - q) * 3) := mul_le_mul_of_nonneg_left (by rw [hc]; exact this) (by linarith)
    nlinarith

theorem minSmoothFn_mono_left {a a' : ℝ} (b s : ℝ) (h : a ≤ a') : minSmoothFn a b s ≤ minSmoothFn a' b s := by
  have hp : 0 < max fltMin |s| := lt_of_lt_of_le (by unfold fltMin; positivity) (le_max_left _ _)
  have low : ∀ x y : ℝ, x ≤ y → y ≤ b → minSmoothFn x b s ≤ minSmoothFn y b s := by
    intro x y hxy hyb
    rw [minSmoothFn_eq, minSmoothFn_eq, min_eq_left (by linarith), min_eq_left hyb, abs_of_nonpos (by linarith : x - b ≤ 0), abs_of_nonpos (by linarith : y - b ≤ 0)]
    have := (bump_lip hp (by linarith : 0 ≤ -(y - b)) (by linarith : -(y - b) ≤ -(x - b))).2
    linarith
  have high : ∀ x y : ℝ, x ≤ y → b ≤ x → minSmoothFn x b s ≤ minSmoothFn y b s := by
    intro x y hxy hyb
    rw [minSmoothFn_eq, minSmoothFn_eq, min_eq_right hyb, min_eq_right (by linarith), abs_of_nonneg (by linarith : 0 ≤ x - b), abs_of_nonneg (by linarith : 0 ≤ y - b)]
    have := (bump_lip hp (by linarith : 0 ≤ x - b) (by linarith : x - b ≤ y - b)).1
    linarith
  rcases le_total a' b with h1 | h1
  · exact low a a' h h1
  · rcases le_total a b with h2 | h2
    · exact (low a b h2 le_rfl).trans (high b a' h1 le_rfl)
    · exact high a a' h h2

theorem minSmoothFn_comm (a b s : ℝ) : minSmoothFn a b s = minSmoothFn b a s := by
  rw [minSmoothFn_eq, minSmoothFn_eq, min_comm, abs_sub_comm]

theorem powLoop_eq (v : ℝ) : ∀ (n : Nat) (p : ℝ), powLoop v n p = p * v ^ n
  | 0, p => by simp [powLoop]
  | n + 1, p => by rw [powLoop, powLoop_eq v n, pow_succ]; ring

end FastNoise.Modifiers
