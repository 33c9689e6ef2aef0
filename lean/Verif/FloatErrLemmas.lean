import Verif.FloatNoiseLemmas
/-!
# How far the binary32 Value noise is from the exact one
-/
namespace FastNoise.F32
open FastNoise.Hash FastNoise.Num FastNoise.Basic FastNoise.Lattice

noncomputable section

/-- Recognising a rounded value. -/
theorem fl_eq {x : ℝ} {m e : ℤ} (hm : |m| ≤ 2 ^ 24) (he : -149 ≤ e) (hb : 2 ^ (e + 23) ≤ |x|) (h : |x - m * 2 ^ e| < 2 ^ (e - 1)) : fl x = m * 2 ^ e := by
  have hr : Rep (m * 2 ^ e : ℝ) := ⟨m, e, hm, he, rfl⟩
  have h2 : (2 : ℝ) ^ e = 2 ^ (e - 1) * 2 := by rw [← zpow_add_one₀ (by norm_num)]; congr 1; ring
  have hb' : 2 ^ (e + 23) ≤ |fl x| := by
    have hp : Rep ((2 : ℝ) ^ (e + 23)) := rep_pow (by omega)
    rcases le_total 0 x with h0 | h0
    · rw [abs_of_nonneg h0] at hb
      exact (le_fl hp hb).trans (le_abs_self _)
    · rw [abs_of_nonpos h0] at hb
      have := fl_le (rep_neg hp) (by linarith : x ≤ -2 ^ (e + 23))
      exact le_trans (by linarith) (neg_le_abs _)
  obtain ⟨n, hn⟩ := rep_grid (rep_fl x) hb'
  rw [show e + 23 - 23 = e by ring] at hn
  have hne := fl_nearest x hr
  have h3 : |(m * 2 ^ e : ℝ) - x| < 2 ^ (e - 1) := by rw [abs_sub_comm]; exact h
  have hd : |(n - m : ℝ)| * 2 ^ e < 1 * 2 ^ e := by
    have hp := two_zpow_pos e
    rw [← abs_of_pos hp, ← abs_mul, sub_mul, ← hn]
    have e1 : fl x - m * 2 ^ e = (fl x - x) + (x - m * 2 ^ e) := by ring
    rw [abs_of_pos hp, e1]
    have := abs_add_le (fl x - x) (x - m * 2 ^ e)
    linarith
  have hd' := lt_of_mul_lt_mul_right hd (two_zpow_pos e).le
  have : |n - m| < 1 := by exact_mod_cast hd'
  have : n = m := by rw [abs_lt] at this; omega
  rw [hn, this]

theorem hermite_err (L : Level) {t : ℝ} (ht : Rep t) (t0 : 0 ≤ t) (t1 : t ≤ 1) : |interpHermite L t - Num.interpHermite t| ≤ 5 / 2 ^ 25 := by
  have hs0 : 0 ≤ mul t t := le_fl rep_zero (mul_self_nonneg t)
  have hs := fl_err_le (x := t * t) (k := 0) (by norm_num) (by rw [abs_of_nonneg (mul_self_nonneg t)]; norm_num; nlinarith)
  have hs' : |mul t t - t * t| ≤ 1 / 2 ^ 25 := by unfold mul; norm_num at hs ⊢; exact hs
  have hsq := abs_le.mp hs'
  have hH : Num.interpHermite t = t * t * (3 - t * 2) := by unfold Num.interpHermite Num.fnma; ring
  rw [hH]
  have hH1 : t * t * (3 - t * 2) ≤ 1 := by nlinarith [mul_nonneg (sq_nonneg (1 - t)) (by linarith : (0:ℝ) ≤ 1 + 2 * t)]
  have hH0 : 0 ≤ t * t * (3 - t * 2) := mul_nonneg (mul_self_nonneg t) (by linarith)
  have fin : ∀ p : ℝ, |p - t * t * (3 - t * 2)| ≤ 4 / 2 ^ 25 → 0 ≤ p → p ≤ 1 + 2 / 2 ^ 25 → |fl p - t * t * (3 - t * 2)| ≤ 5 / 2 ^ 25 := by
    intro p hp p0 h2
    have hpp := abs_le.mp hp
    by_cases h1 : p ≤ 1
    · have := fl_err_le (x := p) (k := 0) (by norm_num) (by rw [abs_of_nonneg p0]; norm_num; exact h1)
      norm_num at this
      have := abs_le.mp this
      rw [abs_le]; constructor <;> norm_num at hpp ⊢ <;> linarith
    · push Not at h1
      have a := le_fl rep_one h1.le
      have b : fl p ≤ p ∨ p < fl p := le_or_gt _ _
      have c := fl_nearest p rep_one
      rw [abs_of_neg (by linarith : 1 - p < 0)] at c
      have c' := abs_le.mp c
      have := fl_le_pow (x := p) (k := 0) (by norm_num) (by norm_num at h2 ⊢; exact h2)
      norm_num at this
      rw [abs_le]; norm_num at hpp h2 ⊢; constructor <;> linarith
  unfold interpHermite
  rw [fnma_eq L ht]
  by_cases h : 1 / 2 ≤ t
  · rw [fl_rep (rep_three_sub ht h t1)]
    refine fin _ ?_ (mul_nonneg hs0 (by linarith)) (by nlinarith)
    rw [← sub_mul, abs_mul, abs_of_nonneg (by linarith : 0 ≤ 3 - t * 2)]
    have : |mul t t - t * t| * (3 - t * 2) ≤ 1 / 2 ^ 25 * 2 := mul_le_mul hs' (by linarith) (by linarith) (by norm_num)
    norm_num at this ⊢; linarith
  · push Not at h
    have hq := fl_err_le (x := 3 - t * 2) (k := 2) (by norm_num) (by rw [abs_of_nonneg (by linarith)]; norm_num; linarith)
    norm_num at hq
    have hqq := abs_le.mp hq
    have hq3 : fl (3 - t * 2) ≤ 3 := fl_le rep_three (by linarith)
    have hq0 : 0 ≤ fl (3 - t * 2) := le_fl rep_zero (by linarith)
    refine fin _ ?_ (mul_nonneg hs0 hq0) (by
      have hs' : mul t t ≤ 1 / 4 := fl_le ⟨1, -2, by norm_num, by norm_num, by norm_num⟩ (by nlinarith)
      have := mul_le_mul hs' hq3 hq0 (by norm_num)
      norm_num at this ⊢; linarith)
    have e : mul t t * fl (3 - t * 2) - t * t * (3 - t * 2) = (mul t t - t * t) * fl (3 - t * 2) + t * t * (fl (3 - t * 2) - (3 - t * 2)) := by ring
    rw [e]
    refine (abs_add_le _ _).trans ?_
    rw [abs_mul, abs_mul, abs_of_nonneg hq0, abs_of_nonneg (mul_self_nonneg t)]
    have a1 : |mul t t - t * t| * fl (3 - t * 2) ≤ 1 / 2 ^ 25 * 3 := mul_le_mul hs' hq3 hq0 (by norm_num)
    have a2 : t * t * |fl (3 - t * 2) - (3 - t * 2)| ≤ 1 / 4 * (1 / 2 ^ 23) :=
      mul_le_mul (by nlinarith) (by norm_num at hq ⊢; exact hq) (abs_nonneg _) (by norm_num)
    norm_num at a1 a2 ⊢; linarith

theorem hermite_lipschitz {t u : ℝ} (t0 : 0 ≤ t) (t1 : t ≤ 1) (u0 : 0 ≤ u) (u1 : u ≤ 1) :
    |Num.interpHermite t - Num.interpHermite u| ≤ 3 / 2 * |t - u| := by
  have hH : ∀ t, Num.interpHermite t = t * t * (3 - t * 2) := by intro t; unfold Num.interpHermite Num.fnma; ring
  rw [hH, hH, show t * t * (3 - t * 2) - u * u * (3 - u * 2) = (3 * (t + u) - 2 * (t * t + t * u + u * u)) * (t - u) by ring, abs_mul]
  refine mul_le_mul_of_nonneg_right ?_ (abs_nonneg _)
  rw [abs_le]
  constructor
  · nlinarith [mul_nonneg t0 u0, mul_nonneg t0 (by linarith : 0 ≤ 1 - t), mul_nonneg u0 (by linarith : 0 ≤ 1 - u), mul_nonneg t0 (by linarith : 0 ≤ 1 - u), mul_nonneg u0 (by linarith : 0 ≤ 1 - t)]
  · nlinarith [sq_nonneg (t + u - 1), sq_nonneg (t - u)]

/-- The interpolation weight of one axis. -/
theorem weight_err (L : Level) (x : ℝ) :
    |interpHermite L (sub x (⌊x⌋ : ℤ)) - Num.interpHermite (x - (⌊x⌋ : ℤ))| ≤ 7 / 2 ^ 25 := by
  obtain ⟨h, a, b⟩ := fract_mem x
  have h0 : 0 ≤ x - (⌊x⌋ : ℤ) := by linarith [Int.floor_le x]
  have h1 : x - (⌊x⌋ : ℤ) ≤ 1 := by linarith [Int.lt_floor_add_one x]
  have e1 := hermite_err L h a b
  have e2 := hermite_lipschitz a b h0 h1
  have e3 := fl_err_le (x := x - (⌊x⌋ : ℤ)) (k := 0) (by norm_num) (by rw [abs_of_nonneg h0]; simpa using h1)
  have e3' : |sub x (⌊x⌋ : ℤ) - (x - (⌊x⌋ : ℤ))| ≤ 1 / 2 ^ 25 := by unfold sub; norm_num at e3 ⊢; exact e3
  have e4 := abs_add_le (interpHermite L (sub x (⌊x⌋ : ℤ)) - Num.interpHermite (sub x (⌊x⌋ : ℤ)))
    (Num.interpHermite (sub x (⌊x⌋ : ℤ)) - Num.interpHermite (x - (⌊x⌋ : ℤ)))
  rw [show interpHermite L (sub x (⌊x⌋ : ℤ)) - Num.interpHermite (sub x (⌊x⌋ : ℤ)) + (Num.interpHermite (sub x (⌊x⌋ : ℤ)) - Num.interpHermite (x - (⌊x⌋ : ℤ)))
    = interpHermite L (sub x (⌊x⌋ : ℤ)) - Num.interpHermite (x - (⌊x⌋ : ℤ)) by ring] at e4
  norm_num at e1 e2 e3' e4 ⊢
  linarith

/-- `Lerp` rounds by at most 3 units of `2^(k-24)`. -/
theorem lerp_err (L : Level) {k : ℤ} (hk : -124 ≤ k) {a b t : ℝ} (ha : |a| ≤ 2 ^ k) (hb : |b| ≤ 2 ^ k) (t0 : 0 ≤ t) (t1 : t ≤ 1) :
    |lerp L a b t - Num.lerp a b t| ≤ 3 * 2 ^ (k - 24) := by
  have hpk := two_zpow_pos k
  have hp := two_zpow_pos (k - 24)
  have e2 : (2 : ℝ) ^ (k + 1) = 2 * 2 ^ k := by rw [zpow_add₀ (by norm_num), zpow_one]; ring
  have hba : |b - a| ≤ 2 ^ (k + 1) := by
    rw [e2]
    have := abs_sub b a; linarith
  have hd := fl_err_le (by omega) hba
  rw [show k + 1 - 25 = k - 24 by ring] at hd
  have hdr : |sub b a| ≤ 2 ^ (k + 1) := by
    have hr : Rep ((2 : ℝ) ^ (k + 1)) := rep_pow (by omega)
    exact abs_le.mpr (fl_mem (rep_neg hr) hr (abs_le.mp hba))
  have htd : |t * sub b a| ≤ 2 ^ (k + 1) := by
    rw [abs_mul, abs_of_nonneg t0]
    nlinarith [abs_nonneg (sub b a)]
  have hpe := fl_err_le (by omega) htd
  rw [show k + 1 - 25 = k - 24 by ring] at hpe
  -- the sum is at most twice the bound
  have small : (2 : ℝ) ^ (k - 24) * 4 ≤ 2 ^ k := by
    have : (2 : ℝ) ^ k = 2 ^ (k - 24) * 2 ^ (24 : ℤ) := by rw [← zpow_add₀ (by norm_num)]; congr 1; ring
    rw [this]; norm_num; linarith
  have hex : |t * (b - a) + a| ≤ 2 ^ k := by
    have := abs_le.mp ha
    have := abs_le.mp hb
    rw [abs_le]; constructor <;> nlinarith
  have hdt : |t * sub b a - t * (b - a)| ≤ 2 ^ (k - 24) := by
    rw [← mul_sub, abs_mul, abs_of_nonneg t0]
    unfold sub
    nlinarith [abs_nonneg (fl (b - a) - (b - a))]
  have hsum : ∀ p : ℝ, |p - t * (b - a)| ≤ 2 * 2 ^ (k - 24) → |fl (p + a) - (p + a)| ≤ 2 ^ (k - 24) := by
    intro p hp'
    have := fl_err_le (x := p + a) (k := k + 1) (by omega) (by
      rw [e2]
      have := abs_le.mp hp'
      have := abs_le.mp hex
      rw [abs_le]; constructor <;> linarith)
    rw [show k + 1 - 25 = k - 24 by ring] at this
    exact this
  unfold lerp fma Num.lerp Num.fma
  split
  · have := hsum (t * sub b a) (by linarith)
    have a1 := abs_le.mp this
    have a2 := abs_le.mp hdt
    rw [abs_le]; constructor <;> linarith
  · have h2 : |mul t (sub b a) - t * (b - a)| ≤ 2 * 2 ^ (k - 24) := by
      have a1 := abs_le.mp hpe
      have a2 := abs_le.mp hdt
      unfold mul
      rw [abs_le]; constructor <;> linarith
    have := hsum _ h2
    have a1 := abs_le.mp this
    have a2 := abs_le.mp h2
    unfold add
    rw [abs_le]; constructor <;> linarith

theorem num_lerp_mem {B a b t : ℝ} (ha : |a| ≤ B) (hb : |b| ≤ B) (t0 : 0 ≤ t) (t1 : t ≤ 1) : |Num.lerp a b t| ≤ B := by
  have := abs_le.mp ha
  have := abs_le.mp hb
  unfold Num.lerp Num.fma
  rw [abs_le]; constructor <;> nlinarith

/-- Errors of the corners and of the weight pass through `Lerp`. -/
theorem num_lerp_diff {B a b t a' b' t' ε τ : ℝ} (ha : |a' - a| ≤ ε) (hb : |b' - b| ≤ ε) (ht : |t' - t| ≤ τ) (t0 : 0 ≤ t') (t1 : t' ≤ 1)
    (hA : |a| ≤ B) (hB : |b| ≤ B) : |Num.lerp a' b' t' - Num.lerp a b t| ≤ ε + τ * (2 * B) := by
  have e : Num.lerp a' b' t' - Num.lerp a b t = ((1 - t') * (a' - a) + t' * (b' - b)) + (t' - t) * (b - a) := by
    unfold Num.lerp Num.fma; ring
  rw [e]
  refine (abs_add_le _ _).trans (add_le_add ?_ ?_)
  · have := abs_le.mp ha
    have := abs_le.mp hb
    rw [abs_le]; constructor <;> nlinarith
  · rw [abs_mul]
    refine mul_le_mul ht ?_ (abs_nonneg _) ((abs_nonneg _).trans ht)
    have := abs_sub b a; linarith

/-- Errors of the nested `Lerp`s: the corners' error plus 5/2^23 of the bound per axis. -/
theorem interp_err (L : Level) (ts : List (ℝ × ℝ)) : ∀ (f g : List Bool → ℝ) (ε : ℝ), (∀ bs, |f bs| ≤ 2 ^ (31 : ℤ)) → (∀ bs, |g bs| ≤ 2 ^ (31 : ℤ)) →
    (∀ bs, |f bs - g bs| ≤ ε) → (∀ t ∈ ts, (0 ≤ t.1 ∧ t.1 ≤ 1) ∧ (0 ≤ t.2 ∧ t.2 ≤ 1) ∧ |t.1 - t.2| ≤ 7 / 2 ^ 25) →
    |interp L f (ts.map Prod.fst) - Lattice.interp g (ts.map Prod.snd)| ≤ ε + ts.length * (5 * 2 ^ 8) := by
  induction ts with
  | nil => intro f g ε _ _ h _; simpa [interp, Lattice.interp] using h []
  | cons t ts ih =>
    intro f g ε hf hg h ht
    obtain ⟨⟨a0, a1⟩, ⟨b0, b1⟩, hτ⟩ := ht t (by simp)
    have := ih (fun bs => lerp L (f (false :: bs)) (f (true :: bs)) t.1) (fun bs => Num.lerp (g (false :: bs)) (g (true :: bs)) t.2) (ε + 5 * 2 ^ 8)
      (fun bs => abs_lerp_le L (by norm_num) (hf _) (hf _) a0 a1) (fun bs => num_lerp_mem (hg _) (hg _) b0 b1) ?_ (fun t h => ht t (by simp [h]))
    · simp only [List.map_cons, interp, Lattice.interp, List.length_cons]
      push_cast
      refine this.trans ?_
      linarith
    · intro bs
      have e1 := lerp_err L (k := 31) (by norm_num) (hf (false :: bs)) (hf (true :: bs)) a0 a1
      have e2 := num_lerp_diff (B := 2 ^ (31 : ℤ)) (h (false :: bs)) (h (true :: bs)) hτ a0 a1 (hg _) (hg _)
      have e3 := abs_add_le (lerp L (f (false :: bs)) (f (true :: bs)) t.1 - Num.lerp (f (false :: bs)) (f (true :: bs)) t.1)
        (Num.lerp (f (false :: bs)) (f (true :: bs)) t.1 - Num.lerp (g (false :: bs)) (g (true :: bs)) t.2)
      rw [show ∀ a b c : ℝ, a - b + (b - c) = a - c by intros; ring] at e3
      norm_num at e1 e2 e3 ⊢
      linarith

theorem valueRaw_err (L : Level) (seed : I32) (x : Pos) :
    |valueRaw L seed x - Lattice.valueRaw seed x| ≤ 2 ^ 6 + x.length * (5 * 2 ^ 8) := by
  have hh : ∀ ps, |((valueCoord seed ps).toInt : ℝ)| ≤ 2 ^ (31 : ℤ) := by
    intro ps
    have h1 := BitVec.le_toInt (valueCoord seed ps)
    have h2 := BitVec.toInt_lt (x := valueCoord seed ps)
    rw [abs_le]
    constructor
    · have : (-2147483648 : ℤ) ≤ (valueCoord seed ps).toInt := by simpa using h1
      norm_num
      exact_mod_cast this
    · have : (valueCoord seed ps).toInt ≤ (2147483648 : ℤ) := by have := h2; norm_num at this; omega
      norm_num
      exact_mod_cast this
  have := interp_err L (x.map fun x => (interpHermite L (sub x (⌊x⌋ : ℤ)), Num.interpHermite (x - (⌊x⌋ : ℤ))))
    (fun bs => valueCoordF seed (corner x bs)) (fun bs => ((valueCoord seed (corner x bs)).toInt : ℝ)) (2 ^ 6)
    (fun bs => by have := abs_valueCoordF seed (corner x bs); norm_num [valueBounds] at this ⊢; exact this)
    (fun bs => hh _) (fun bs => by have := fl_err_le (by norm_num) (hh (corner x bs)); norm_num at this ⊢; exact this) (by
      intro t ht
      obtain ⟨x, _, rfl⟩ := List.mem_map.mp ht
      refine ⟨weight_mem L x, ?_, weight_err L x⟩
      have h0 : 0 ≤ x - (⌊x⌋ : ℤ) := by linarith [Int.floor_le x]
      have h1 : x - (⌊x⌋ : ℤ) ≤ 1 := by linarith [Int.lt_floor_add_one x]
      have hH : ∀ t, Num.interpHermite t = t * t * (3 - t * 2) := by intro t; unfold Num.interpHermite Num.fnma; ring
      simp only [hH]
      generalize x - (⌊x⌋ : ℤ) = t at h0 h1
      refine ⟨mul_nonneg (mul_self_nonneg t) (by linarith), ?_⟩
      nlinarith [mul_nonneg (sq_nonneg (1 - t)) (by linarith : (0:ℝ) ≤ 1 + 2 * t)])
  rw [List.map_map, List.map_map, List.length_map] at this
  exact this

/-- The rounding of `ScaleOutput` for the value noises, on top of an error `δ` of its argument. -/
theorem scale_err (L : Level) {k : ℤ} (hk : -100 ≤ k) {lo hi v u δ : ℝ} (bl : |lo| ≤ 2 ^ k) (bh : |hi| ≤ 2 ^ k)
    (hv : |v| ≤ valueBounds) (hd : |v - u| ≤ δ) :
    |fma L ((hi - lo) / 2 ^ 32) (sub v (-valueBounds)) lo - ((hi - lo) / 2 ^ 32 * (u - -valueBounds) + lo)| ≤ (2 * δ / 2 ^ 32 + 6 / 2 ^ 25) * 2 ^ k := by
  have hpk := two_zpow_pos k
  have e1 : (2 : ℝ) ^ (k + 1) = 2 * 2 ^ k := by rw [zpow_add₀ (by norm_num), zpow_one]; ring
  have e25 : (2 : ℝ) ^ (k + 1 - 25) = 2 ^ k / 2 ^ 24 := by
    rw [show k + 1 - 25 = k + -24 by ring, zpow_add₀ (by norm_num)]; norm_num; ring
  have round : ∀ x, |x| ≤ 2 * 2 ^ k → |fl x - x| ≤ 2 ^ k / 2 ^ 24 := by
    intro x hx
    rw [← e1] at hx
    have := fl_err_le (by omega) hx
    rwa [e25] at this
  have hvb := abs_le.mp hv
  obtain ⟨w0, w1⟩ := value_shift hv
  have hwe := fl_err_le (x := v - -valueBounds) (k := 32) (by norm_num) (by
    rw [abs_of_nonneg (by linarith)]; have : valueBounds = 2147483648 := rfl; norm_num; linarith)
  have hwe' : |sub v (-valueBounds) - (v - -valueBounds)| ≤ 2 ^ 7 := by unfold sub; norm_num at hwe ⊢; exact hwe
  generalize sub v (-valueBounds) = w at *
  generalize valueBounds = B at *
  generalize (2 : ℝ) ^ k = M at *
  clear e1 e25 hwe
  obtain ⟨q, hq⟩ : ∃ q, w / 2 ^ 32 = q := ⟨_, rfl⟩
  have q0 : 0 ≤ q := by rw [← hq]; positivity
  have q1 : q ≤ 1 := by rw [← hq, div_le_one (by norm_num)]; exact w1
  have ew : (hi - lo) / 2 ^ 32 * w = (hi - lo) * q := by rw [← hq]; ring
  have hl := abs_le.mp bl
  have hh := abs_le.mp bh
  have hS : |hi - lo| ≤ 2 * M := by rw [abs_le]; constructor <;> linarith
  have hprod : |(hi - lo) * q - (hi - lo) / 2 ^ 32 * (u - -B)| ≤ (2 * δ / 2 ^ 32 + 2 / 2 ^ 25) * M := by
    have e1 : (hi - lo) * q - (hi - lo) / 2 ^ 32 * (u - -B) = (hi - lo) * ((w - (u - -B)) / 2 ^ 32) := by rw [← hq]; ring
    have e2 : |w - (u - -B)| ≤ 2 ^ 7 + δ := by
      rw [show w - (u - -B) = (w - (v - -B)) + (v - u) by ring]
      exact (abs_add_le _ _).trans (add_le_add hwe' hd)
    rw [e1, abs_mul, abs_div, abs_of_pos (by norm_num : (0 : ℝ) < 2 ^ 32)]
    have a1 : |w - (u - -B)| / 2 ^ 32 ≤ (2 ^ 7 + δ) / 2 ^ 32 := by gcongr
    have a2 := mul_le_mul hS a1 (by positivity) (by positivity)
    refine a2.trans (le_of_eq ?_)
    norm_num; ring
  have hx : |(hi - lo) * q| ≤ 2 * M := by
    rw [abs_mul, abs_of_nonneg q0]; nlinarith [abs_nonneg (hi - lo)]
  have hsum : |(hi - lo) * q + lo| ≤ M := by rw [abs_le]; constructor <;> nlinarith
  have hme := round _ hx
  have hsl := abs_le.mp hsum
  have a1 := abs_le.mp hprod
  have fin : ∀ p : ℝ, |p - (hi - lo) * q| ≤ M / 2 ^ 24 → |fl (p + lo) - (p + lo)| ≤ M / 2 ^ 24 := by
    intro p hp
    apply round
    have := abs_le.mp hp
    have h24 : M / 2 ^ 24 ≤ M := by norm_num; linarith
    rw [abs_le]; constructor <;> linarith
  unfold fma
  rw [ew]
  split
  · have a2 := abs_le.mp (fin _ (by rw [sub_self, abs_zero]; positivity))
    rw [abs_le]; constructor <;> linarith
  · have a2 := abs_le.mp (fin _ hme)
    have a3 := abs_le.mp hme
    unfold add mul
    rw [ew]
    rw [abs_le]; constructor <;> linarith

/-- Relative rounding error. -/
theorem fl_rel {x : ℝ} (h : 2 ^ (-126 : ℤ) ≤ |x|) : |fl x - x| ≤ |x| / 2 ^ 24 := by
  have hx : x ≠ 0 := by
    rintro rfl; rw [abs_zero] at h; have := two_zpow_pos (-126); linarith
  refine (fl_err x).trans ?_
  have h2 : (2 : ℝ) ^ (lastPlace x + 23) ≤ |x| := by
    by_cases hl : lastPlace x = -149
    · rw [hl]; norm_num at h ⊢; exact h
    · exact le_abs_div hx (by have := lastPlace_ge x; omega)
  rw [zpow_add₀ (by norm_num)] at h2
  generalize (2 : ℝ) ^ lastPlace x = y at *
  norm_num at h2 ⊢
  linarith

end
end FastNoise.F32
