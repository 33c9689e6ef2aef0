import Verif.FloatModifiersLemmas
import Verif.ModifierProps
/-!
# C63: blends and modifiers in binary32 arithmetic

What C30 and C31 say of the blends and value modifiers for exact arithmetic, for the float arithmetic the library uses: every operation rounded to the nearest binary32 number, on SIMD levels
with and without fused multiply-add (`L`).  `Rep x` says that `x` is a binary32 number.  Sources return floats; overflow to infinity is not modelled.
-/
namespace FastNoise.F32
open FastNoise.Hash FastNoise.Num FastNoise.Basic
open FastNoise.Modifiers (Op Interpolation fltMin affine chan)

/-! ## The operators -/

/-- **C63**: Add and Multiply (and Min and Max) do not depend on the order of their sources, Subtract changes only the sign; adding or subtracting 0 and multiplying or dividing by 1 changes
nothing; a value minus itself is 0 and divided by itself is 1, whatever is rounded elsewhere. -/
theorem C63_operators {a : ℝ} (b : ℝ) (ha : Rep a) :
    (blend .add a b = blend .add b a ∧ blend .multiply a b = blend .multiply b a ∧ blend .min a b = blend .min b a ∧ blend .max a b = blend .max b a ∧
      blend .subtract a b = -blend .subtract b a) ∧
    (blend .add a 0 = a ∧ blend .subtract a 0 = a ∧ blend .multiply a 1 = a ∧ blend .divide a 1 = a) ∧
    blend .subtract a a = 0 ∧ (a ≠ 0 → blend .divide a a = 1) := by
  refine ⟨⟨?_, ?_, min_comm a b, max_comm a b, sub_swap a b⟩, ⟨?_, ?_, ?_, ?_⟩, sub_self' a, fun h => div_self' h⟩
  · simp only [blend, add]; rw [add_comm]
  · simp only [blend, mul]; rw [mul_comm]
  · simp only [blend, add]; rw [add_zero, fl_rep ha]
  · simp only [blend, sub]; rw [sub_zero, fl_rep ha]
  · simp only [blend, mul]; rw [mul_one, fl_rep ha]
  · simp only [blend, div]; rw [div_one, fl_rep ha]

/-- **C63**: Subtract returns 0 only where its sources agree, and otherwise has the sign of the exact difference, however small that is. -/
theorem C63_subtract_sign {a b : ℝ} (ha : Rep a) (hb : Rep b) :
    (blend .subtract a b = 0 ↔ a = b) ∧ (0 < blend .subtract a b ↔ b < a) := by
  have h1 : b < a → 0 < sub a b := sub_pos' ha hb
  have h2 : a < b → sub a b < 0 := fun h => by rw [sub_swap]; have := sub_pos' hb ha h; linarith
  have h3 : a = b → sub a b = 0 := fun h => by rw [h]; exact sub_self' b
  simp only [blend]
  rcases lt_trichotomy a b with h | h | h
  · have := h2 h; exact ⟨⟨fun e => by linarith, fun e => by linarith⟩, ⟨fun e => by linarith, fun e => by linarith⟩⟩
  · have := h3 h; exact ⟨⟨fun _ => h, fun _ => this⟩, ⟨fun e => by linarith, fun e => by linarith⟩⟩
  · have := h1 h; exact ⟨⟨fun e => by linarith, fun e => by linarith⟩, ⟨fun _ => h, fun _ => this⟩⟩

/-- **C63**: each operator is within half a unit in the last place, relatively `2^-24`, of the exact result (Multiply and Divide: unless the result is below the smallest normal float). -/
theorem C63_operator_error {a b : ℝ} (ha : Rep a) (hb : Rep b) :
    |blend .add a b - (a + b)| ≤ |a + b| / 2 ^ 24 ∧ |blend .subtract a b - (a - b)| ≤ |a - b| / 2 ^ 24 ∧
    (fltMin ≤ |a * b| → |blend .multiply a b - a * b| ≤ |a * b| / 2 ^ 24) ∧ (fltMin ≤ |a / b| → |blend .divide a b - a / b| ≤ |a / b| / 2 ^ 24) :=
  ⟨add_rel ha hb, sub_rel ha hb, fun h => fl_rel h, fun h => fl_rel h⟩

/-- **C63**: the operators are monotone despite the rounding. -/
theorem C63_operators_monotone {a a' b b' : ℝ} (h : a ≤ a') (h' : b ≤ b') :
    blend .add a b ≤ blend .add a' b' ∧ blend .subtract a b' ≤ blend .subtract a' b ∧ blend .min a b ≤ blend .min a' b' ∧ blend .max a b ≤ blend .max a' b' ∧
    (0 ≤ b → blend .multiply a b ≤ blend .multiply a' b) ∧ (0 < b → blend .divide a b ≤ blend .divide a' b) :=
  ⟨fl_mono (by linarith), fl_mono (by linarith), min_le_min h h', max_le_max h h', fun hb => fl_mono (mul_le_mul_of_nonneg_right h hb), fun hb => div_mono hb h⟩

example : blend .subtract (1 : ℝ) (1 - 2 ^ (-24 : ℤ)) ≠ 0 := by
  intro h
  have r : Rep (1 - 2 ^ (-24 : ℤ)) := ⟨2 ^ 24 - 1, -24, by norm_num, by norm_num, by norm_num⟩
  have := (C63_subtract_sign rep_one r).1.mp h
  norm_num at this

/-- What C30 says of exact arithmetic fails here: Subtract does not undo Add. -/
theorem C63_not_inverse : blend .subtract (blend .add 1 (2 ^ (-25 : ℤ))) 1 ≠ 2 ^ (-25 : ℤ) := by
  have e : add 1 (2 ^ (-25 : ℤ)) = 1 := by
    have := fl_eq (x := 1 + 2 ^ (-25 : ℤ)) (m := 2 ^ 23) (e := -23) (by norm_num) (by norm_num) (by norm_num [abs_of_pos]) (by norm_num [abs_of_pos])
    unfold add; rw [this]; norm_num
  simp only [blend]
  rw [e, sub_self']; norm_num

/-! ## PowInt -/

theorem powLoop_bound {v : ℝ} (hv : |v| ≤ 1) : ∀ (n : Nat) (p : ℝ), |p| ≤ 1 → |powLoop v n p| ≤ 1
  | 0, p, hp => hp
  | n + 1, p, hp => by
    refine powLoop_bound hv n _ ?_
    have : |p * v| ≤ 1 := by rw [abs_mul]; exact mul_le_one₀ hp (abs_nonneg _) hv
    rw [abs_le] at this ⊢
    exact fl_mem (rep_neg rep_one) rep_one this

theorem powLoop_nonneg {v : ℝ} (hv : 0 ≤ v) : ∀ (n : Nat) (p : ℝ), 0 ≤ p → 0 ≤ powLoop v n p
  | 0, _, hp => hp
  | n + 1, _, hp => powLoop_nonneg hv n _ (le_fl rep_zero (mul_nonneg hp hv))

theorem powLoop_neg (v : ℝ) : ∀ (n : Nat) (p : ℝ), powLoop (-v) n p = (-1) ^ n * powLoop v n p
  | 0, p => by simp [powLoop]
  | n + 1, p => by
    have hn : ∀ (n : Nat) (p : ℝ), powLoop v n (-p) = -powLoop v n p := by
      intro n
      induction n with
      | zero => intro p; rfl
      | succ n ih => intro p; simp only [powLoop]; rw [← ih]; congr 1; unfold mul; rw [← fl_neg]; congr 1; ring
    simp only [powLoop]
    rw [powLoop_neg v n, show mul p (-v) = -mul p v by unfold mul; rw [← fl_neg]; congr 1; ring, hn, pow_succ]; ring

/-- **C63**, PowInt: values within [-1, 1] stay there, squares and powers of non-negative values are non-negative, and an even power takes the same value at `-v` as at `v`, an odd one the
opposite: exactly, for every power from 2. -/
theorem C63_powInt (n : Nat) (v : ℝ) :
    (|v| ≤ 1 → |powInt (n + 2) v| ≤ 1) ∧ (0 ≤ v → 0 ≤ powInt (n + 2) v) ∧ 0 ≤ powInt 2 v ∧ powInt (n + 2) (-v) = (-1) ^ n * powInt (n + 2) v := by
  have e : ((n : ℤ) + 2 - 2).toNat = n := by omega
  unfold powInt
  rw [e]
  refine ⟨fun h => powLoop_bound h n _ ?_, fun h => powLoop_nonneg h n _ (le_fl rep_zero (mul_nonneg h h)), ?_, ?_⟩
  · have : |v * v| ≤ 1 := by rw [abs_mul]; exact mul_le_one₀ h (abs_nonneg _) h
    rw [abs_le] at this ⊢
    exact fl_mem (rep_neg rep_one) rep_one this
  · exact le_fl rep_zero (mul_self_nonneg v)
  · rw [show mul (-v) (-v) = mul v v by unfold mul; congr 1; ring]
    exact powLoop_neg v n _

theorem powLoop_rel {v : ℝ} (hv : 1 ≤ |v|) : ∀ (n : Nat) (p x δ : ℝ), 1 ≤ |p| → |p - x| ≤ δ * |x| → 0 ≤ δ →
    |powLoop v n p - x * v ^ n| ≤ ((1 + δ) * (1 + 1 / 2 ^ 24) ^ n - 1) * |x * v ^ n|
  | 0, p, x, δ, _, h, _ => by simpa [powLoop] using h
  | n + 1, p, x, δ, hp, h, hd => by
    have hpv : 1 ≤ |p * v| := by rw [abs_mul]; exact one_le_mul_of_one_le_of_one_le hp hv
    have hrel := fl_rel (x := p * v) (le_trans (by norm_num) hpv)
    have hstep : |mul p v - x * v| ≤ ((1 + δ) * (1 + 1 / 2 ^ 24) - 1) * |x * v| := by
      have h1 : |p * v - x * v| ≤ δ * |x * v| := by rw [← sub_mul, abs_mul, abs_mul, ← mul_assoc]; exact mul_le_mul_of_nonneg_right h (abs_nonneg _)
      have h2 : |p * v| ≤ (1 + δ) * |x * v| := by
        have := abs_add_le (p * v - x * v) (x * v)
        rw [sub_add_cancel] at this
        linarith
      have h3 := abs_add_le (fl (p * v) - p * v) (p * v - x * v)
      rw [show fl (p * v) - p * v + (p * v - x * v) = mul p v - x * v by unfold mul; ring] at h3
      have h4 : |p * v| / 2 ^ 24 ≤ (1 + δ) * |x * v| / 2 ^ 24 := div_le_div_of_nonneg_right h2 (by positivity)
      linarith
    have h1 : 1 ≤ |mul p v| := by
      rcases abs_choice (p * v) with e | e
      · rw [e] at hpv; exact (le_fl rep_one hpv).trans (le_abs_self _)
      · rw [e] at hpv
        have := fl_le (rep_neg rep_one) (by linarith : p * v ≤ -1)
        exact le_trans (by unfold mul; linarith) (neg_le_abs _)
    have ih := powLoop_rel hv n (mul p v) (x * v) ((1 + δ) * (1 + 1 / 2 ^ 24) - 1) h1 hstep (by nlinarith)
    rw [show x * v ^ (n + 1) = x * v * v ^ n by ring, show (1 + δ) * (1 + 1 / 2 ^ 24) ^ (n + 1) = (1 + ((1 + δ) * (1 + 1 / 2 ^ 24) - 1)) * (1 + 1 / 2 ^ 24) ^ n by ring]
    exact ih

/-- **C63**, PowInt: of values of size at least 1 the power is exact up to one rounding per multiplication, relatively `(1 + 2^-24)^(n-1) - 1`.  (Below 1 the same holds until the power
underflows.) -/
theorem C63_powInt_error (n : Nat) {v : ℝ} (hv : 1 ≤ |v|) :
    |powInt (n + 2) v - v ^ (n + 2)| ≤ ((1 + 1 / 2 ^ 24) ^ (n + 1) - 1) * |v ^ (n + 2)| := by
  have e : ((n : ℤ) + 2 - 2).toNat = n := by omega
  have hvv : 1 ≤ |v * v| := by rw [abs_mul]; exact one_le_mul_of_one_le_of_one_le hv hv
  have hrel := fl_rel (x := v * v) (le_trans (by norm_num) hvv)
  have h1 : 1 ≤ |mul v v| := by
    rw [abs_of_nonneg (mul_self_nonneg v)] at hvv
    exact (le_fl rep_one hvv).trans (le_abs_self _)
  have := powLoop_rel hv n (mul v v) (v * v) (1 / 2 ^ 24) h1 (by unfold mul; linarith) (by norm_num)
  unfold powInt
  rw [e, show v ^ (n + 2) = v * v * v ^ n by ring, show ((1 : ℝ) + 1 / 2 ^ 24) ^ (n + 1) = (1 + 1 / 2 ^ 24) * (1 + 1 / 2 ^ 24) ^ n by ring]
  exact this

example : powInt 3 (-2) = -8 := by
  have h4 : fl (4 : ℝ) = 4 := by exact_mod_cast rep_intCast 4 (by norm_num)
  have h8 : fl (-8 : ℝ) = -8 := by exact_mod_cast rep_intCast (-8) (by norm_num)
  unfold powInt
  norm_num [powLoop, mul, h4, h8]

/-! ## MinSmooth and MaxSmooth -/

/-- `rcp` is an approximate reciprocal as the processors offer it: relative error up to `2^-11`. -/
def ApproxRcp (rcp : ℝ → ℝ) : Prop := ∀ x, 0 < x → 0 ≤ rcp x ∧ x * rcp x ≤ 1 + 1 / 2 ^ 11

noncomputable section

theorem smooth_pos (s : ℝ) : 0 < max fltMin |s| := lt_of_lt_of_le (by unfold fltMin; positivity) (le_max_left _ _)

theorem sixth_bounds : 0 ≤ sixth ∧ sixth ≤ 1 / 6 * (1 + 1 / 2 ^ 24) := by
  have h := fl_rel (x := 1 / 6) (by norm_num [abs_of_pos])
  rw [abs_of_pos (by norm_num : (0 : ℝ) < 1 / 6)] at h
  have := abs_le.mp h
  unfold sixth div
  constructor <;> linarith

/-- The amount taken off. -/
def bumpF (rcp : ℝ → ℝ) (s d : ℝ) : ℝ :=
  let h := mul (max (sub s d) 0) (rcp s)
  mul (mul (mul h h) h) s

theorem bumpF_nonneg {rcp : ℝ → ℝ} (hr : ApproxRcp rcp) {s : ℝ} (hs : 0 < s) (d : ℝ) : 0 ≤ bumpF rcp s d := by
  have h0 : 0 ≤ mul (max (sub s d) 0) (rcp s) := le_fl rep_zero (mul_nonneg (le_max_right _ _) (hr s hs).1)
  exact le_fl rep_zero (mul_nonneg (le_fl rep_zero (mul_nonneg (le_fl rep_zero (mul_nonneg h0 h0)) h0)) hs.le)

theorem bumpF_zero (rcp : ℝ → ℝ) {s d : ℝ} (h : s ≤ d) : bumpF rcp s d = 0 := by
  have e : max (sub s d) 0 = 0 := max_eq_right (fl_le rep_zero (by linarith))
  unfold bumpF mul
  simp [e, fl_zero]

theorem bumpF_le {rcp : ℝ → ℝ} (hr : ApproxRcp rcp) {s d : ℝ} (hs : fltMin ≤ s) (hrs : Rep s) (hd : 0 ≤ d) : bumpF rcp s d ≤ s * (1 + 1 / 2 ^ 9) := by
  have hp : 0 < s := lt_of_lt_of_le (by unfold fltMin; positivity) hs
  have h0 : 0 ≤ mul (max (sub s d) 0) (rcp s) := le_fl rep_zero (mul_nonneg (le_max_right _ _) (hr s hp).1)
  have rH : Rep (1 + 1 / 2 ^ 11 : ℝ) := ⟨2049, -11, by norm_num, by norm_num, by norm_num⟩
  have rH2 : Rep (1 + 33 / 2 ^ 15 : ℝ) := ⟨2 ^ 15 + 33, -15, by norm_num, by norm_num, by norm_num⟩
  have rH3 : Rep (1 + 50 / 2 ^ 15 : ℝ) := ⟨2 ^ 15 + 50, -15, by norm_num, by norm_num, by norm_num⟩
  have h1 : mul (max (sub s d) 0) (rcp s) ≤ 1 + 1 / 2 ^ 11 := by
    refine fl_le rH (le_trans ?_ (hr s hp).2)
    exact mul_le_mul_of_nonneg_right (max_le (fl_le hrs (by linarith)) hp.le) (hr s hp).1
  unfold bumpF
  simp only []
  generalize mul (max (sub s d) 0) (rcp s) = h at *
  have h2 : mul h h ≤ 1 + 33 / 2 ^ 15 := by
    refine fl_le rH2 ((mul_le_mul h1 h1 h0 (by norm_num)).trans (by norm_num))
  have h20 : 0 ≤ mul h h := le_fl rep_zero (mul_self_nonneg h)
  have h3 : mul (mul h h) h ≤ 1 + 50 / 2 ^ 15 := by
    refine fl_le rH3 ((mul_le_mul h2 h1 h0 (by norm_num)).trans (by norm_num))
  generalize mul (mul h h) h = c at *
  have h4 : c * s ≤ s * (1 + 50 / 2 ^ 15) := by nlinarith
  have h5 := fl_mono h4
  have h6 := fl_rel (x := s * (1 + 50 / 2 ^ 15)) (by
    rw [abs_of_pos (by positivity)]; refine le_trans hs ?_; linarith)
  rw [abs_of_pos (by positivity : 0 < s * (1 + 50 / 2 ^ 15))] at h6
  have := (abs_le.mp h6).2
  unfold mul
  have : s * (1 + 50 / 2 ^ 15) / 2 ^ 24 ≤ s * (1 / 2 ^ 20) := by nlinarith
  nlinarith

theorem minSmooth_eq (L : Level) (rcp : ℝ → ℝ) (a b s : ℝ) :
    minSmooth L rcp a b s = fnma L sixth (bumpF rcp (max fltMin |s|) |sub a b|) (min a b) := rfl

theorem fnma_le (L : Level) {c x m : ℝ} (hc : 0 ≤ c) (hx : 0 ≤ x) (hm : Rep m) : fnma L c x m ≤ m := by
  have : 0 ≤ c * x := mul_nonneg hc hx
  unfold fnma sub mul
  split
  · exact fl_le hm (by linarith)
  · exact fl_le hm (by linarith [le_fl rep_zero this])

/-- **C63**, MinSmooth: symmetric in its sources; never above the smaller source; equal to it wherever the sources differ by the smoothness or more; and below it by at most 0.17 times the
smoothness, up to one rounding of the result. -/
theorem C63_minSmooth (L : Level) {rcp : ℝ → ℝ} (hr : ApproxRcp rcp) {a b s : ℝ} (ha : Rep a) (hb : Rep b) (hs : Rep s) :
    minSmooth L rcp a b s = minSmooth L rcp b a s ∧ minSmooth L rcp a b s ≤ min a b ∧
    (fltMin ≤ |a - b| → |s| ≤ |a - b| → minSmooth L rcp a b s = min a b) ∧
    fl (min a b - 17 / 100 * max fltMin |s|) ≤ minSmooth L rcp a b s := by
  have hp := smooth_pos s
  have hrs : Rep (max fltMin |s|) := rep_max rep_fltMin (rep_abs hs)
  have hm : Rep (min a b) := rep_min ha hb
  have hb0 := bumpF_nonneg hr hp |sub a b|
  have hb1 := bumpF_le hr (le_max_left _ _) hrs (abs_nonneg (sub a b))
  refine ⟨?_, ?_, ?_, ?_⟩
  · rw [minSmooth_eq, minSmooth_eq, sub_swap, abs_neg, min_comm]
  · rw [minSmooth_eq]; exact fnma_le L sixth_bounds.1 hb0 hm
  · intro h1 h2
    have h3 : max fltMin |s| ≤ |sub a b| := by
      have h4 : max fltMin |s| ≤ |a - b| := max_le h1 h2
      rcases abs_choice (a - b) with e | e
      · rw [e] at h4; exact (le_fl hrs h4).trans (le_abs_self _)
      · rw [e] at h4
        have := fl_le (rep_neg hrs) (by linarith : a - b ≤ -max fltMin |s|)
        exact le_trans (by unfold sub; linarith) (neg_le_abs _)
    rw [minSmooth_eq, bumpF_zero rcp h3]
    unfold fnma sub mul
    simp [fl_zero, fl_rep hm]
  · rw [minSmooth_eq]
    generalize bumpF rcp (max fltMin |s|) |sub a b| = x at *
    have hmn : fltMin ≤ max fltMin |s| := le_max_left _ _
    generalize max fltMin |s| = S at *
    have hx : sixth * x ≤ 167 / 1000 * S := by
      calc _ ≤ (1 / 6 * (1 + 1 / 2 ^ 24)) * (S * (1 + 1 / 2 ^ 9)) := mul_le_mul sixth_bounds.2 hb1 hb0 (by norm_num)
        _ ≤ _ := by nlinarith
    unfold fnma sub mul
    split
    · exact fl_mono (by linarith)
    · refine fl_mono ?_
      have h1 := fl_mono (hx.trans (by linarith : 167 / 1000 * S ≤ 168 / 1000 * S))
      have h2 : fl (168 / 1000 * S) ≤ 17 / 100 * S := by
        rcases le_total (2 ^ (-126 : ℤ)) (168 / 1000 * S) with h | h
        · have := fl_rel (x := 168 / 1000 * S) (by rw [abs_of_pos (by positivity)]; exact h)
          rw [abs_of_pos (by positivity : 0 < 168 / 1000 * S)] at this
          have := (abs_le.mp this).2
          linarith
        · have := fl_err_lt (x := 168 / 1000 * S) (k := -125) (by norm_num) (by
            rw [abs_of_pos (by positivity)]; refine lt_of_le_of_lt h (by norm_num))
          have := (abs_le.mp this).2
          unfold fltMin at hmn
          norm_num at this hmn ⊢
          linarith
      linarith

/-- **C63**, MaxSmooth: the mirror image of MinSmooth, so never below the greater source, and equal to it where the sources differ by the smoothness or more. -/
theorem C63_maxSmooth (L : Level) {rcp : ℝ → ℝ} (hr : ApproxRcp rcp) {a b s : ℝ} (ha : Rep a) (hb : Rep b) (hs : Rep s) :
    maxSmooth L rcp a b s = -minSmooth L rcp (-a) (-b) s ∧ max a b ≤ maxSmooth L rcp a b s ∧
    (fltMin ≤ |a - b| → |s| ≤ |a - b| → maxSmooth L rcp a b s = max a b) := by
  have e : maxSmooth L rcp a b s = -minSmooth L rcp (-a) (-b) s := rfl
  obtain ⟨-, h1, h2, -⟩ := C63_minSmooth L hr (rep_neg ha) (rep_neg hb) hs
  have hmm : min (-a) (-b) = -max a b := by rw [← min_neg_neg]
  have hab : |-a - -b| = |a - b| := by rw [← abs_neg]; congr 1; ring
  rw [hmm] at h1 h2
  rw [hab] at h2
  refine ⟨e, by rw [e]; linarith, fun h h' => by rw [e, h2 h h', neg_neg]⟩

/-- The exact reciprocal is one of them, so is one that is `2^-11` too large. -/
example : ApproxRcp (fun x => (1 + 1 / 2 ^ 11) / x) := fun x hx => ⟨by positivity, by field_simp; norm_num⟩

/-! ## Fade -/

theorem fadeFactor_low (L : Level) (i : Interpolation) {f m M : ℝ} (h : f ≤ m) (hM : m < M) : fadeFactor L i f m M = 0 := by
  have h1 : 0 ≤ sub M m := le_fl rep_zero (by linarith)
  have h2 : sub f m ≤ 0 := fl_le rep_zero (by linarith)
  have e : max 0 (min 1 (div (sub f m) (sub M m))) = 0 := max_eq_left ((min_le_right _ _).trans (div_nonpos' h1 h2))
  unfold fadeFactor
  simp only [e]
  cases i
  · rfl
  · exact hermite_zero L
  · exact quintic_zero L

theorem fadeFactor_high (L : Level) (i : Interpolation) {f m M : ℝ} (hm : Rep m) (hMr : Rep M) (h : M ≤ f) (hM : m < M) : fadeFactor L i f m M = 1 := by
  have h1 : 0 < sub M m := sub_pos' hMr hm hM
  have h2 : sub M m ≤ sub f m := fl_mono (by linarith)
  have e : max 0 (min 1 (div (sub f m) (sub M m))) = 1 := by rw [min_eq_left (one_le_div' h1 h2)]; exact max_eq_right zero_le_one
  unfold fadeFactor
  simp only [e]
  cases i
  · rfl
  · exact hermite_one L
  · exact quintic_one L

theorem clamp01 (x : ℝ) : 0 ≤ max 0 (min 1 x) ∧ max 0 (min 1 x) ≤ 1 := ⟨le_max_left _ _, max_le zero_le_one (min_le_left _ _)⟩

/-- **C63**, Fade: at and below Fade Min the output is exactly A, for every interpolation, on every level. -/
theorem C63_fade_start (L : Level) (i : Interpolation) {a m M : ℝ} (b f : ℝ) (ha : Rep a) (hm : Rep m) (hMr : Rep M) (hM : m < M) (h : f ≤ m) :
    fade L i a b f m M = a := by
  unfold fade
  simp only [if_neg (sub_pos' hMr hm hM).ne', fadeFactor_low L i h hM]
  exact lerp_zero L ha

/-- **C63**, Fade: at and above Fade Max the output is `A + (B - A)` with both operations rounded; that is exactly B if `B - A` is a float.  It is not in general: `C63_fade_end_misses`. -/
theorem C63_fade_end_partial (L : Level) (i : Interpolation) {a b m M f : ℝ} (hb : Rep b) (hm : Rep m) (hMr : Rep M) (hM : m < M) (h : M ≤ f) :
    fade L i a b f m M = add (sub b a) a ∧ (Rep (b - a) → fade L i a b f m M = b) := by
  have e : fade L i a b f m M = fl (sub b a + a) := by
    unfold fade
    simp only [if_neg (sub_pos' hMr hm hM).ne', fadeFactor_high L i hm hMr h hM]
    exact lerp_one L a b
  refine ⟨e, fun hd => ?_⟩
  rw [e]; unfold sub
  rw [fl_rep hd, sub_add_cancel, fl_rep hb]

/-- **C63**, Fade, linear and Hermite: sources bounded by a power of two give an output bounded by it, at every fade value, empty and inverted fade ranges included. -/
theorem C63_fade_range (L : Level) (i : Interpolation) (hi : i ≠ .quintic) {k : ℤ} (hk : -125 ≤ k) {a b : ℝ} (f m M : ℝ) (ha : |a| ≤ 2 ^ k) (hb : |b| ≤ 2 ^ k) :
    |fade L i a b f m M| ≤ 2 ^ k := by
  have hc := clamp01 (div (sub f m) (sub M m))
  have hr : Rep (max 0 (min 1 (div (sub f m) (sub M m)))) := rep_max rep_zero (rep_min rep_one (rep_div _ _))
  have hf : 0 ≤ fadeFactor L i f m M ∧ fadeFactor L i f m M ≤ 1 := by
    unfold fadeFactor
    cases i
    · exact hc
    · exact ⟨hermite_nonneg L hr hc.1 hc.2, hermite_le L hr hc.1 hc.2⟩
    · exact absurd rfl hi
  unfold fade
  simp only []
  split
  · exact abs_lerp_le L hk ha hb (by norm_num) (by norm_num)
  · exact abs_lerp_le L hk ha hb hf.1 hf.2

/-- **C63**, Fade, quintic: the output may leave that range (`C63_fade_quintic_exceeds`), but by less than `2^-16` of it. -/
theorem C63_fade_quintic_range_partial (L : Level) {k : ℤ} (hk : -120 ≤ k) {a b : ℝ} (f m M : ℝ) (ha : |a| ≤ 2 ^ k) (hb : |b| ≤ 2 ^ k) :
    |fade L .quintic a b f m M| ≤ 2 ^ k * (1 + 2 ^ (-16 : ℤ)) := by
  have hc := clamp01 (div (sub f m) (sub M m))
  have hf := quintic_factor L hc.1 hc.2
  unfold fade
  simp only []
  split
  · exact abs_lerp_over L hk ha hb (by norm_num) (by have := U_pos; norm_num; linarith)
  · exact abs_lerp_over L hk ha hb hf.1 hf.2

/-- **C63**, Fade, linear: growing with the fade value if A is at most B, falling if B is at most A. -/
theorem C63_fade_monotone (L : Level) {a b m M f g : ℝ} (hm : Rep m) (hMr : Rep M) (hM : m < M) (hfg : f ≤ g) :
    (a ≤ b → fade L .linear a b f m M ≤ fade L .linear a b g m M) ∧ (b ≤ a → fade L .linear a b g m M ≤ fade L .linear a b f m M) := by
  have h1 : 0 < sub M m := sub_pos' hMr hm hM
  have h2 : sub f m ≤ sub g m := fl_mono (by linarith)
  have hf : fadeFactor L .linear f m M ≤ fadeFactor L .linear g m M := by
    unfold fadeFactor
    exact max_le_max le_rfl (min_le_min le_rfl (div_mono h1 h2))
  unfold fade
  simp only [if_neg h1.ne']
  refine ⟨fun h => lerp_mono L h hf, fun h => ?_⟩
  have := lerp_mono L (a := -a) (b := -b) (by linarith) hf
  rw [lerp_neg, lerp_neg] at this
  linarith

example (L : Level) (i : Interpolation) : fade L i 1 3 (-7) 0 1 = 1 := C63_fade_start L i 3 (-7) rep_one rep_zero rep_one zero_lt_one (by norm_num)

/-- The full statement fails at Fade Max: fading from -1 to `3 * 2^-25`, the output there is `4 * 2^-25`, more than either source. -/
theorem C63_fade_end_misses (L : Level) (i : Interpolation) : fade L i (-1) (3 * 2 ^ (-25 : ℤ)) 1 0 1 = 4 * 2 ^ (-25 : ℤ) := by
  have hb : Rep (3 * 2 ^ (-25 : ℤ)) := ⟨3, -25, by norm_num, by norm_num, by norm_num⟩
  rw [(C63_fade_end_partial L i (a := -1) hb rep_zero rep_one zero_lt_one le_rfl).1]
  have e1 : sub (3 * 2 ^ (-25 : ℤ)) (-1) = 1 + 2 ^ (-23 : ℤ) := by
    have := fl_eq (x := 3 * 2 ^ (-25 : ℤ) - -1) (m := 2 ^ 23 + 1) (e := -23) (by norm_num) (by norm_num) (by norm_num [abs_of_pos]) (by norm_num [abs_lt])
    unfold sub; rw [this]; norm_num
  rw [e1]
  unfold add
  rw [show (1 : ℝ) + 2 ^ (-23 : ℤ) + -1 = 2 ^ (-23 : ℤ) by ring, fl_rep (rep_pow (by norm_num))]
  norm_num

/-- The range statement fails for the quintic: fading from 0 to 1, at `1 - 17 / 2^15` the output is above 1. -/
theorem C63_fade_quintic_exceeds (L : Level) : 1 < fade L .quintic 0 1 (1 - 17 / 2 ^ 15) 0 1 := by
  set t : ℝ := 1 - 17 / 2 ^ 15 with ht
  have rt : Rep t := ⟨2 ^ 15 - 17, -15, by norm_num, by norm_num, by rw [ht]; norm_num⟩
  have h1 : fl (1 : ℝ) = 1 := fl_rep rep_one
  have e0 : sub 1 0 = 1 := by unfold sub; rw [sub_zero, h1]
  have e1 : div (sub t 0) (sub 1 0) = t := by rw [e0]; unfold div sub; rw [div_one, sub_zero, fl_rep rt, fl_rep rt]
  have e2 : max 0 (min 1 t) = t := by rw [min_eq_right (by rw [ht]; norm_num), max_eq_right (by rw [ht]; norm_num)]
  have tt : fl (t * t) = 16759813 / 2 ^ 24 := by
    rw [fl_eq (m := 16759813) (e := -24) (by norm_num) (by norm_num) (by rw [ht]; norm_num [abs_of_pos]) (by rw [ht]; norm_num [abs_lt])]; norm_num
  have ttt : fl (16759813 / 2 ^ 24 * t) = 16751118 / 2 ^ 24 := by
    rw [fl_eq (m := 16751118) (e := -24) (by norm_num) (by norm_num) (by rw [ht]; norm_num [abs_of_pos]) (by rw [ht]; norm_num [abs_lt])]; norm_num
  have q6 : fl (t * 6) = t * 6 := fl_rep ⟨32751 * 6, -15, by norm_num, by norm_num, by rw [ht]; norm_num⟩
  have q15 : fl (t * 6 + -15) = t * 6 - 15 := by
    rw [← sub_eq_add_neg]; exact fl_rep ⟨32751 * 6 - 15 * 2 ^ 15, -15, by norm_num, by norm_num, by rw [ht]; norm_num⟩
  have hin : fma L t 6 (-15) = t * 6 - 15 := by
    unfold fma add mul; rw [q6, q15]; simp
  have hq : 1 < interpQuintic L t := by
    unfold interpQuintic
    rw [hin]
    unfold mul
    rw [tt, ttt]
    unfold fma add mul
    split
    · have o : fl (t * (t * 6 - 15) + 10) = 8401678 / 2 ^ 23 := by
        rw [fl_eq (m := 8401678) (e := -23) (by norm_num) (by norm_num) (by rw [ht]; norm_num [abs_of_pos]) (by rw [ht]; norm_num [abs_lt])]; norm_num
      rw [o, fl_eq (m := 8388609) (e := -23) (by norm_num) (by norm_num) (by norm_num [abs_of_pos]) (by norm_num [abs_lt])]; norm_num
    · have p : fl (t * (t * 6 - 15)) = -9435550 / 2 ^ 20 := by
        rw [fl_eq (m := -9435550) (e := -20) (by norm_num) (by norm_num) (by rw [ht]; norm_num [abs_of_pos]) (by rw [ht]; norm_num [abs_lt])]; norm_num
      have o : fl (-9435550 / 2 ^ 20 + 10) = 8401680 / 2 ^ 23 := by
        rw [fl_eq (m := 8401680) (e := -23) (by norm_num) (by norm_num) (by norm_num [abs_of_pos]) (by norm_num [abs_lt])]; norm_num
      rw [p, o, fl_eq (m := 8388611) (e := -23) (by norm_num) (by norm_num) (by norm_num [abs_of_pos]) (by norm_num [abs_lt])]; norm_num
  unfold fade fadeFactor
  simp only [e1, e2]
  rw [if_neg (by rw [e0]; norm_num)]
  have rq : Rep (interpQuintic L t) := rep_fl _
  have e3 : lerp L 0 1 (interpQuintic L t) = interpQuintic L t := by
    unfold lerp fma add mul
    rw [e0, mul_one, fl_rep rq, add_zero, fl_rep rq]; simp
  rw [e3]; exact hq

end
end FastNoise.F32
