import Verif.FloatFractal
import Verif.FloatModifiersLemmas
/-!
# C64: fractals in binary32 arithmetic

FractalFBm and FractalRidged with every operation rounded, on SIMD levels with and without fused multiply-add (`L`).  `Rep x` says that `x` is a binary32 number.
-/
namespace FastNoise.F32
open FastNoise.Hash FastNoise.Num FastNoise.Basic
open FastNoise.Fractal (Cfg)

noncomputable section

/-! ## Specification -/

/-- The position the source is asked for in octave `i`: multiplied by the lacunarity `i` times, rounded each time. -/
def octavePos (lacunarity : ℝ) : Nat → Pos → Pos
  | 0, pos => pos
  | i + 1, pos => octavePos lacunarity i (pos.map (mul · lacunarity))

/-- The exact weighted sum of the first `n` octaves. -/
def octaveSum (gain : ℝ) (value : Nat → ℝ) (n : Nat) : ℝ := ∑ i ∈ Finset.range n, gain ^ i * value i

/-- The largest value an octave can add up to: the fractal of the constant 1. -/
def peak (gain : ℝ) (octaves : ℤ) : ℝ :=
  fbm ⟨false⟩ { gain := Src.const |gain|, weightedStrength := Src.const 0, octaves := octaves, lacunarity := 1 } (Src.const 1) 0 []

/-! ## Exact cases -/

/-- **C64**: one octave (or fewer) is the source itself, bit for bit; so is any number of octaves with gain 0. -/
theorem C64_one_octave (L : Level) (c : Cfg) (source : Src) (seed : I32) (pos : Pos) (hs : Rep (source seed pos)) (h : c.octaves ≤ 1 ∨ c.gain seed pos = 0) :
    fbm L c source seed pos = source seed pos := by
  have e0 : mul (source seed pos) 1 = source seed pos := by unfold mul; rw [mul_one, fl_rep hs]
  unfold fbm
  simp only [e0]
  rcases h with h | h
  · rw [show (c.octaves - 1).toNat = 0 by omega]; rfl
  · rw [h]
    have : ∀ (n : Nat) (sd : I32) (p : Pos) (amp noise sum : ℝ), Rep sum → fbmLoop L source 0 (c.weightedStrength seed pos) c.lacunarity n sd p amp noise sum = sum := by
      intro n
      induction n with
      | zero => intros; rfl
      | succ n ih =>
        intro sd p amp noise sum hsum
        unfold fbmLoop
        have ez : ∀ x, mul x 0 = 0 := fun x => by unfold mul; rw [mul_zero, fl_zero]
        have ea : add sum 0 = sum := by unfold add; rw [add_zero, fl_rep hsum]
        simp only [ez, ea]
        exact ih _ _ _ _ _ hsum
    exact this _ _ _ _ _ _ hs

/-- **C64**: with weighted strength 0 the result does not depend on whether the level has fused multiply-add. -/
theorem C64_level_independent (L L' : Level) (c : Cfg) (source : Src) (seed : I32) (pos : Pos) (h : c.weightedStrength seed pos = 0) :
    fbm L c source seed pos = fbm L' c source seed pos ∧ ridged L c source seed pos = ridged L' c source seed pos := by
  constructor
  · unfold fbm
    simp only [h]
    have : ∀ (n : Nat) (sd : I32) (p : Pos) (amp noise sum : ℝ), fbmLoop L source (c.gain seed pos) 0 c.lacunarity n sd p amp noise sum =
        fbmLoop L' source (c.gain seed pos) 0 c.lacunarity n sd p amp noise sum := by
      intro n
      induction n with
      | zero => intros; rfl
      | succ n ih => intros; unfold fbmLoop; simp only [lerp_zero _ rep_one]; exact ih _ _ _ _ _
    exact this _ _ _ _ _ _
  · unfold ridged
    simp only [h]
    have : ∀ (n : Nat) (sd : I32) (p : Pos) (amp noise sum : ℝ), ridgedLoop L source (c.gain seed pos) 0 c.lacunarity n sd p amp noise sum =
        ridgedLoop L' source (c.gain seed pos) 0 c.lacunarity n sd p amp noise sum := by
      intro n
      induction n with
      | zero => intros; rfl
      | succ n ih => intros; unfold ridgedLoop; simp only [lerp_zero _ rep_one]; exact ih _ _ _ _ _
    exact this _ _ _ _ _ _

/-! ## Bounds -/

theorem abs_fl_le {x r : ℝ} (hr : Rep r) (h : |x| ≤ r) : |fl x| ≤ r := by
  rw [abs_le] at h ⊢; exact fl_mem (rep_neg hr) hr h

theorem abs_fl_le_fl {x y : ℝ} (h : |x| ≤ y) : |fl x| ≤ fl y := by
  rw [abs_le] at h ⊢
  exact ⟨by rw [← fl_neg]; exact fl_mono (by linarith), fl_mono h.2⟩

theorem amp_step {amp w gain amp' : ℝ} (hw : |w| ≤ 1) (ha : |amp| ≤ amp') (hr : Rep amp') : |mul (mul amp w) gain| ≤ mul amp' |gain| := by
  have h0 : 0 ≤ amp' := (abs_nonneg _).trans ha
  have h1 : |mul amp w| ≤ amp' := abs_fl_le hr (by
    rw [abs_mul]; exact (mul_le_mul ha hw (abs_nonneg _) h0).trans (le_of_eq (mul_one _)))
  exact abs_fl_le_fl (by rw [abs_mul]; exact mul_le_mul_of_nonneg_right h1 (abs_nonneg _))

theorem sum_step {sum sum' x amp amp' : ℝ} (hx : |x| ≤ 1) (ha : |amp| ≤ amp') (hr : Rep amp') (hs : |sum| ≤ sum') : |add sum (mul x amp)| ≤ add sum' amp' := by
  have h0 : 0 ≤ amp' := (abs_nonneg _).trans ha
  have h1 : |mul x amp| ≤ amp' := abs_fl_le hr (by
    rw [abs_mul]; exact (mul_le_mul hx ha (abs_nonneg _) zero_le_one).trans (le_of_eq (one_mul _)))
  refine abs_fl_le_fl ((abs_add_le _ _).trans (by linarith))

/-- The loop on the constant 1 with weighted strength 0. -/
theorem peak_step (L : Level) (gain lac : ℝ) (n : Nat) (sd : I32) (p : Pos) {amp : ℝ} (ha : Rep amp) (noise sum : ℝ) :
    fbmLoop L (Src.const 1) gain 0 lac (n + 1) sd p amp noise sum =
      fbmLoop L (Src.const 1) gain 0 lac n (sd - (-1)) (p.map (mul · lac)) (mul amp gain) 1 (add sum (mul amp gain)) := by
  have e1 : mul amp 1 = amp := by unfold mul; rw [mul_one, fl_rep ha]
  have e2 : mul 1 (mul amp gain) = mul amp gain := by unfold mul; rw [one_mul, fl_rep (rep_fl _)]
  rw [fbmLoop]
  simp only [lerp_zero _ rep_one, Src.const]
  rw [e1, e2]

theorem peakLoop_irrel (L L' : Level) (gain lac lac' : ℝ) : ∀ (n : Nat) (sd sd' : I32) (p p' : Pos) (amp noise noise' sum : ℝ), Rep amp →
    fbmLoop L (Src.const 1) gain 0 lac n sd p amp noise sum = fbmLoop L' (Src.const 1) gain 0 lac' n sd' p' amp noise' sum
  | 0, _, _, _, _, _, _, _, _, _ => rfl
  | n + 1, sd, sd', p, p', amp, noise, noise', sum, h => by
    rw [peak_step L gain lac n sd p h, peak_step L' gain lac' n sd' p' h]
    exact peakLoop_irrel L L' gain lac lac' n _ _ _ _ _ _ _ _ (rep_mul _ _)

theorem weight_le (L : Level) {x ws : ℝ} (hx : |x| ≤ 1) (hw0 : 0 ≤ ws) (hw1 : ws ≤ 1) : |lerp L 1 x ws| ≤ 1 := by
  have := abs_lerp_le L (k := 0) (by norm_num) (a := 1) (b := x) (t := ws) (by norm_num) (by simpa using hx) hw0 hw1
  simpa using this

theorem half_mem {noise : ℝ} (h : |noise| ≤ 1) : |mul (add noise 1) 0.5| ≤ 1 := by
  have A := abs_le.mp h
  have m := fl_mem rep_zero rep_two (x := noise + 1) ⟨by linarith, by linarith⟩
  refine abs_fl_le rep_one ?_
  unfold add
  rw [abs_of_nonneg (by nlinarith)]; norm_num; linarith

theorem ridge_mem {noise : ℝ} (h0 : 0 ≤ noise) (h1 : noise ≤ 1) : |add (mul noise (-2)) 1| ≤ 1 := by
  have m := fl_mem (rep_neg rep_two) rep_zero (x := noise * (-2)) ⟨by linarith, by linarith⟩
  refine abs_fl_le rep_one ?_
  unfold mul
  rw [abs_le]; constructor <;> linarith

theorem fbmLoop_le (L : Level) (source : Src) (hs : ∀ s p, |source s p| ≤ 1) {gain ws lac : ℝ} (hw0 : 0 ≤ ws) (hw1 : ws ≤ 1) :
    ∀ (n : Nat) (sd : I32) (p : Pos) (amp noise sum amp' sum' : ℝ), |noise| ≤ 1 → |amp| ≤ amp' → Rep amp' → |sum| ≤ sum' →
      |fbmLoop L source gain ws lac n sd p amp noise sum| ≤ fbmLoop ⟨false⟩ (Src.const 1) |gain| 0 1 n 0 [] amp' 1 sum'
  | 0, _, _, _, _, _, _, _, _, _, _, h => h
  | n + 1, sd, p, amp, noise, sum, amp', sum', hn, ha, hr, h => by
    rw [peak_step _ _ _ _ _ _ hr, fbmLoop]
    have hamp := amp_step (gain := gain) (weight_le L (half_mem hn) hw0 hw1) ha hr
    have := fbmLoop_le L source hs (gain := gain) (lac := lac) hw0 hw1 n (sd - (-1)) (p.map (mul · lac)) _ (source (sd - (-1)) (p.map (mul · lac))) _ _ _ (hs _ _) hamp (rep_mul _ _)
      (sum_step (hs (sd - (-1)) (p.map (mul · lac))) hamp (rep_mul _ _) h)
    refine this.trans (le_of_eq ?_)
    exact peakLoop_irrel _ _ _ _ _ _ _ _ _ _ _ _ _ _ (rep_mul _ _)

theorem ridgedLoop_le (L : Level) (source : Src) (hs : ∀ s p, |source s p| ≤ 1) {gain ws lac : ℝ} (hw0 : 0 ≤ ws) (hw1 : ws ≤ 1) :
    ∀ (n : Nat) (sd : I32) (p : Pos) (amp noise sum amp' sum' : ℝ), 0 ≤ noise → noise ≤ 1 → |amp| ≤ amp' → Rep amp' → |sum| ≤ sum' →
      |ridgedLoop L source gain ws lac n sd p amp noise sum| ≤ fbmLoop ⟨false⟩ (Src.const 1) |gain| 0 1 n 0 [] amp' 1 sum'
  | 0, _, _, _, _, _, _, _, _, _, _, _, h => h
  | n + 1, sd, p, amp, noise, sum, amp', sum', hn0, hn1, ha, hr, h => by
    rw [peak_step _ _ _ _ _ _ hr, ridgedLoop]
    have hw : |sub 1 noise| ≤ 1 := abs_fl_le rep_one (by rw [abs_le]; constructor <;> linarith)
    have hamp := amp_step (gain := gain) (weight_le L hw hw0 hw1) ha hr
    have hv := hs (sd - (-1)) (p.map (mul · lac))
    have := ridgedLoop_le L source hs (gain := gain) (lac := lac) hw0 hw1 n (sd - (-1)) (p.map (mul · lac)) _ |source (sd - (-1)) (p.map (mul · lac))| _ _ _ (abs_nonneg _) hv hamp (rep_mul _ _)
      (sum_step (ridge_mem (abs_nonneg _) hv) hamp (rep_mul _ _) h)
    refine this.trans (le_of_eq ?_)
    exact peakLoop_irrel _ _ _ _ _ _ _ _ _ _ _ _ _ _ (rep_mul _ _)

/-- **C64**: a source within [-1, 1] and a weighted strength within [0, 1] give an output whose size is at most that of the FBm of the constant 1 with the same octaves and gain (taken
non-negative): rounding never pushes a fractal beyond its peak. -/
theorem C64_bounded_by_peak (L : Level) (c : Cfg) (source : Src) (hs : ∀ s p, |source s p| ≤ 1) (seed : I32) (pos : Pos)
    (hw0 : 0 ≤ c.weightedStrength seed pos) (hw1 : c.weightedStrength seed pos ≤ 1) :
    |fbm L c source seed pos| ≤ peak (c.gain seed pos) c.octaves ∧ |ridged L c source seed pos| ≤ peak (c.gain seed pos) c.octaves := by
  have ep : peak (c.gain seed pos) c.octaves = fbmLoop ⟨false⟩ (Src.const 1) |c.gain seed pos| 0 1 (c.octaves - 1).toNat 0 [] 1 1 1 := by
    have : mul 1 1 = 1 := by unfold mul; rw [mul_one, fl_rep rep_one]
    unfold peak fbm
    simp only [Src.const, this]
  rw [ep]
  have hn := hs seed pos
  constructor
  · refine fbmLoop_le L source hs hw0 hw1 _ _ _ _ _ _ _ _ hn (by norm_num) rep_one (abs_fl_le rep_one (by rw [mul_one]; exact hn))
  · refine ridgedLoop_le L source hs hw0 hw1 _ _ _ _ _ _ _ _ (abs_nonneg _) hn (by norm_num) rep_one (abs_fl_le rep_one ?_)
    rw [mul_one]; exact ridge_mem (abs_nonneg _) hn

theorem peakLoop_half {g : ℝ} (g0 : 0 ≤ g) (hg : g ≤ 1 / 2) : ∀ (n : Nat) (i : Nat) (sd : I32) (p : Pos) (amp noise sum : ℝ), Rep amp → 0 ≤ amp →
    (i ≤ 23 → amp ≤ 2 ^ (-(i : ℤ)) ∧ sum ≤ 2 - 2 ^ (-(i : ℤ))) → (23 < i → amp ≤ 2 ^ (-23 : ℤ) ∧ sum ≤ 2) →
      fbmLoop ⟨false⟩ (Src.const 1) g 0 1 n sd p amp noise sum ≤ 2
  | 0, i, _, _, _, _, sum, _, _, h1, h2 => by
    change sum ≤ 2
    rcases le_or_gt i 23 with h | h
    · have := (h1 h).2; have := two_zpow_pos (-(i : ℤ)); linarith
    · exact (h2 h).2
  | n + 1, i, sd, p, amp, noise, sum, hr, ha, h1, h2 => by
    rw [peak_step _ _ _ _ _ _ hr]
    have hm0 : 0 ≤ mul amp g := le_fl rep_zero (mul_nonneg ha g0)
    have hm1 : mul amp g ≤ amp := fl_le hr (by nlinarith)
    refine peakLoop_half g0 hg n (i + 1) _ _ _ _ _ (rep_mul _ _) hm0 (fun hi => ?_) (fun hi => ?_)
    · obtain ⟨a1, a2⟩ := h1 (by omega)
      have hp := two_zpow_pos (-(i : ℤ))
      have e : (2 : ℝ) ^ (-((i + 1 : ℕ) : ℤ)) = 2 ^ (-(i : ℤ)) / 2 := by
        push_cast; rw [show (-((i : ℤ) + 1)) = -(i : ℤ) - 1 by ring, zpow_sub_one₀ (by norm_num)]; ring
      have b : mul amp g ≤ 2 ^ (-((i + 1 : ℕ) : ℤ)) := fl_le (rep_pow (by push_cast; omega)) (by rw [e]; nlinarith)
      refine ⟨b, fl_le ?_ (by rw [e] at b ⊢; linarith)⟩
      refine ⟨2 ^ (i + 2) - 1, -((i + 1 : ℕ) : ℤ), ?_, by push_cast; omega, ?_⟩
      · have h1 : (1 : ℤ) ≤ 2 ^ (i + 2) := one_le_pow₀ (by norm_num)
        have h2 : (2 : ℤ) ^ (i + 2) ≤ 2 ^ 24 := pow_le_pow_right₀ (by norm_num) (by omega)
        rw [abs_of_nonneg (by omega)]; omega
      · push_cast
        rw [sub_mul, one_mul, ← zpow_natCast, ← zpow_add₀ (by norm_num)]
        congr 1
        push_cast
        rw [show (i : ℤ) + 2 + (-((i : ℤ) + 1)) = 1 by ring]; norm_num
    · rcases le_or_gt i 23 with h | h
      · obtain ⟨a1, a2⟩ := h1 h
        have hi' : i = 23 := by omega
        subst hi'
        refine ⟨hm1.trans (by simpa using a1), ?_⟩
        have := fl_le_pow (k := 1) (x := sum + mul amp g) (by norm_num) (by norm_num at a1 a2 ⊢; linarith)
        simpa [add] using this
      · obtain ⟨a1, a2⟩ := h2 h
        refine ⟨hm1.trans a1, ?_⟩
        have := fl_le_pow (k := 1) (x := sum + mul amp g) (by norm_num) (by norm_num at a1 a2 ⊢; linarith)
        simpa [add] using this

theorem peakLoop_int {g : ℝ} (g0 : 0 ≤ g) (hg : g ≤ 1) : ∀ (n : Nat) (i : Nat) (sd : I32) (p : Pos) (amp noise sum : ℝ), i + n ≤ 2 ^ 24 → Rep amp → 0 ≤ amp → amp ≤ 1 → sum ≤ i →
      fbmLoop ⟨false⟩ (Src.const 1) g 0 1 n sd p amp noise sum ≤ i + n
  | 0, i, _, _, _, _, sum, _, _, _, _, h => by simpa [fbmLoop] using h
  | n + 1, i, sd, p, amp, noise, sum, hi, hr, ha, h1, h => by
    rw [peak_step _ _ _ _ _ _ hr]
    have hm0 : 0 ≤ mul amp g := le_fl rep_zero (mul_nonneg ha g0)
    have hm1 : mul amp g ≤ 1 := fl_le rep_one (by nlinarith)
    have ri : Rep ((i : ℝ) + 1) := by
      have := rep_int (n := (i : ℤ) + 1) (by rw [abs_of_nonneg (by positivity)]; norm_num at hi ⊢; omega)
      exact_mod_cast this
    have := peakLoop_int g0 hg n (i + 1) (sd - (-1)) (p.map (mul · 1)) (mul amp g) 1 (add sum (mul amp g)) (by omega) (rep_mul _ _) hm0 hm1
      (by push_cast; exact fl_le ri (by linarith))
    refine this.trans (le_of_eq ?_)
    push_cast; ring

/-- **C64**: that peak is at most 2 for gains up to 1/2 (the default), whatever the number of octaves, and at most the number of octaves for gains up to 1. -/
theorem C64_peak (gain : ℝ) (octaves : ℤ) :
    (|gain| ≤ 1 / 2 → peak gain octaves ≤ 2) ∧ (|gain| ≤ 1 → 1 ≤ octaves → octaves ≤ 2 ^ 24 → peak gain octaves ≤ octaves) := by
  have ep : peak gain octaves = fbmLoop ⟨false⟩ (Src.const 1) |gain| 0 1 (octaves - 1).toNat 0 [] 1 1 1 := by
    have : mul 1 1 = 1 := by unfold mul; rw [mul_one, fl_rep rep_one]
    unfold peak fbm
    simp only [Src.const, this]
  rw [ep]
  constructor
  · intro h
    exact peakLoop_half (abs_nonneg _) h _ 0 _ _ _ _ _ rep_one zero_le_one (fun _ => by norm_num) (fun h => absurd h (by norm_num))
  · intro h h1 h2
    have := peakLoop_int (abs_nonneg _) h (octaves - 1).toNat 1 0 [] 1 1 1 (by omega) rep_one zero_le_one le_rfl (by norm_num)
    refine this.trans (le_of_eq ?_)
    have e : ((1 + (octaves - 1).toNat : ℕ) : ℤ) = octaves := by omega
    exact_mod_cast congrArg (Int.cast (R := ℝ)) e

/-! ## Accuracy -/

theorem octaveSum_succ (gain : ℝ) (value : Nat → ℝ) (n : Nat) : octaveSum gain value (n + 1) = octaveSum gain value n + gain ^ n * value n := Finset.sum_range_succ _ _

theorem fbmLoop_err (L : Level) (source : Src) (hs : ∀ s p, |source s p| ≤ 1) {gain lac : ℝ} (hg : |gain| ≤ 1) {k : ℤ} (hk0 : 0 ≤ k) (hk : k ≤ 24) :
    ∀ (n i : Nat) (sd : I32) (p : Pos) (amp noise sum : ℝ) (value : Nat → ℝ) (E : ℝ), ((i + n + 1 : ℕ) : ℝ) ≤ 2 ^ k → Rep amp → |amp| ≤ 1 →
      |amp - gain ^ i| ≤ i * U → |sum| ≤ (i + 1 : ℕ) → |sum - octaveSum gain value (i + 1)| ≤ E →
      (∀ j < n, value (i + 1 + j) = source (sd + BitVec.ofNat 32 (j + 1)) (octavePos lac (j + 1) p)) →
      |fbmLoop L source gain 0 lac n sd p amp noise sum - octaveSum gain value (i + n + 1)| ≤ E + n * ((i + n + 1 + 2 ^ k) * U)
  | 0, i, _, _, _, _, _, _, E, _, _, _, _, _, h, _ => by simpa [fbmLoop] using h
  | n + 1, i, sd, p, amp, noise, sum, value, E, hik, hr, ha, he, hsum, hE, hv => by
    have hu := U_pos
    have hpk : (2 : ℝ) ^ k ≤ 2 ^ (24 : ℤ) := zpow_le_zpow_right₀ (by norm_num) hk
    have e1 : mul amp 1 = amp := by unfold mul; rw [mul_one, fl_rep hr]
    have seed1 : sd - (-1) = sd + BitVec.ofNat 32 (0 + 1) := by
      rw [BitVec.sub_eq_add_neg]; rfl
    rw [fbmLoop]
    simp only [lerp_zero _ rep_one]
    rw [e1]
    have hx := hs (sd - (-1)) (p.map (mul · lac))
    have v0 : value (i + 1) = source (sd - (-1)) (p.map (mul · lac)) := by
      have := hv 0 (by omega)
      rw [seed1]; simpa [octavePos] using this
    generalize hxv : source (sd - (-1)) (p.map (mul · lac)) = x at *
    -- the amplitude
    have a1 : |amp * gain| ≤ 1 := by rw [abs_mul]; exact mul_le_one₀ ha (abs_nonneg _) hg
    have a2 : |mul amp gain| ≤ 1 := abs_fl_le rep_one a1
    have a3 := rnd1 a1
    have a4 : |amp * gain - gain ^ (i + 1)| ≤ i * U := by
      rw [pow_succ, ← sub_mul, abs_mul]
      calc _ ≤ (i * U) * 1 := mul_le_mul he hg (abs_nonneg _) (by positivity)
        _ = _ := by ring
    have a5 : |mul amp gain - gain ^ (i + 1)| ≤ ((i + 1 : ℕ) : ℝ) * U := by
      have := abs_add_le (mul amp gain - amp * gain) (amp * gain - gain ^ (i + 1))
      rw [sub_add_sub_cancel] at this
      push_cast
      unfold mul at this ⊢
      linarith
    -- the product
    have p1 : |x * mul amp gain| ≤ 1 := by rw [abs_mul]; exact mul_le_one₀ hx (abs_nonneg _) a2
    have p2 : |mul x (mul amp gain)| ≤ 1 := abs_fl_le rep_one p1
    have p3 := rnd1 p1
    have p4 : |x * mul amp gain - gain ^ (i + 1) * x| ≤ ((i + 1 : ℕ) : ℝ) * U := by
      rw [show x * mul amp gain - gain ^ (i + 1) * x = x * (mul amp gain - gain ^ (i + 1)) by ring, abs_mul]
      calc _ ≤ 1 * (((i + 1 : ℕ) : ℝ) * U) := mul_le_mul hx a5 (abs_nonneg _) zero_le_one
        _ = _ := by ring
    -- the sum
    have hi24 : ((i + 1 + 1 : ℕ) : ℝ) ≤ 2 ^ k := by refine le_trans ?_ hik; push_cast; have : (0 : ℝ) ≤ n := by positivity
                                                    linarith
    have ri : Rep ((i + 1 + 1 : ℕ) : ℝ) := by
      have h1 : ((i + 1 + 1 : ℕ) : ℝ) ≤ 2 ^ 24 := by refine (hi24.trans hpk).trans (le_of_eq (by norm_num))
      have h2 : i + 1 + 1 ≤ 2 ^ 24 := by exact_mod_cast h1
      have := rep_int (n := ((i + 1 + 1 : ℕ) : ℤ)) (by rw [abs_of_nonneg (by positivity)]; exact_mod_cast h2)
      exact_mod_cast this
    have s1 : |sum + mul x (mul amp gain)| ≤ ((i + 1 + 1 : ℕ) : ℝ) := (abs_add_le _ _).trans (by push_cast at hsum ⊢; linarith)
    have s2 : |add sum (mul x (mul amp gain))| ≤ ((i + 1 + 1 : ℕ) : ℝ) := abs_fl_le ri s1
    have s3 : |fl (sum + mul x (mul amp gain)) - (sum + mul x (mul amp gain))| ≤ 2 ^ k * U := by
      have := fl_err_le (k := k) (by omega) (s1.trans hi24)
      rw [zpow_sub₀ (by norm_num)] at this
      unfold U; norm_num at this ⊢; linarith
    have s4 : |add sum (mul x (mul amp gain)) - octaveSum gain value (i + 1 + 1)| ≤ E + (i + 2 + 2 ^ k) * U := by
      rw [octaveSum_succ, v0]
      have A := abs_le.mp s3
      have B := abs_le.mp hE
      have C := abs_le.mp p3
      have D := abs_le.mp p4
      push_cast at D
      unfold add
      unfold mul at A C D ⊢
      rw [abs_le]
      constructor <;> nlinarith
    have := fbmLoop_err L source hs hg hk0 hk n (i + 1) (sd - (-1)) (p.map (mul · lac)) (mul amp gain) x _ value _
      (by refine le_trans (le_of_eq ?_) hik; push_cast; ring) (rep_mul _ _) a2 a5 s2 s4 (by
        intro j hj
        have := hv (j + 1) (by omega)
        rw [show i + 1 + 1 + j = i + 1 + (j + 1) by ring, this, seed1]
        congr 1
        rw [BitVec.add_assoc]
        congr 1
        rw [← BitVec.ofNat_add]; congr 1; ring)
    rw [show i + 1 + n + 1 = i + (n + 1) + 1 by ring] at this
    refine this.trans ?_
    push_cast
    have hn : (0 : ℝ) ≤ n := by positivity
    nlinarith

/-- **C64**: FBm without weighting.  For a source within [-1, 1], a gain within [-1, 1] and `n + 1 ≤ 2^k` octaves, the output is within `n (n + 1 + 2^k) 2^-25` of the exact sum of the
octaves `gain^i * source( seed + i, position of octave i )`. -/
theorem C64_fbm_error (L : Level) (c : Cfg) (source : Src) (hs : ∀ s p, |source s p| ≤ 1) (hr : ∀ s p, Rep (source s p)) (seed : I32) (pos : Pos) (n : Nat) {k : ℤ}
    (hk0 : 0 ≤ k) (hk : k ≤ 24) (hn : ((n + 1 : ℕ) : ℝ) ≤ 2 ^ k) (ho : c.octaves = n + 1) (hw : c.weightedStrength seed pos = 0) (hg : |c.gain seed pos| ≤ 1) :
    |fbm L c source seed pos - octaveSum (c.gain seed pos) (fun i => source (seed + BitVec.ofNat 32 i) (octavePos c.lacunarity i pos)) (n + 1)| ≤
      n * ((n + 1 + 2 ^ k) / 2 ^ 25) := by
  have e0 : mul (source seed pos) 1 = source seed pos := by unfold mul; rw [mul_one, fl_rep (hr _ _)]
  have := fbmLoop_err L source hs hg (lac := c.lacunarity) hk0 hk n 0 seed pos 1 (source seed pos) (source seed pos)
    (fun i => source (seed + BitVec.ofNat 32 i) (octavePos c.lacunarity i pos)) 0 (by simpa using hn) rep_one (by norm_num) (by simp) (by simpa using hs seed pos)
    (by simp [octaveSum, octavePos]) (by intro j _; simp only [zero_add]; rw [add_comm 1 j])
  unfold fbm
  simp only [hw, e0, ho]
  rw [show ((n : ℤ) + 1 - 1).toNat = n by omega]
  rw [zero_add] at this
  refine this.trans (le_of_eq ?_)
  unfold U; push_cast; ring

/-- Without weighting the ridged loop is the FBm loop over the folded source. -/
theorem ridgedLoop_zero (L : Level) (source : Src) (gain lac : ℝ) : ∀ (n : Nat) (sd : I32) (p : Pos) (amp noise noise' sum : ℝ), Rep amp →
    ridgedLoop L source gain 0 lac n sd p amp noise sum = fbmLoop L (fun s p => add (mul |source s p| (-2)) 1) gain 0 lac n sd p amp noise' sum
  | 0, _, _, _, _, _, _, _ => rfl
  | n + 1, sd, p, amp, noise, noise', sum, _ => by
    rw [ridgedLoop, fbmLoop]
    simp only [lerp_zero _ rep_one]
    exact ridgedLoop_zero L source gain lac n _ _ _ _ _ _ (rep_mul _ _)

/-- **C64**: Ridged without weighting: within `(n (n + 1 + 2^k) + n + 1) 2^-25` of the exact sum of the folded octaves `gain^i (1 - 2 |source( seed + i, position of octave i )|)`. -/
theorem C64_ridged_error (L : Level) (c : Cfg) (source : Src) (hs : ∀ s p, |source s p| ≤ 1) (hr : ∀ s p, Rep (source s p)) (seed : I32) (pos : Pos) (n : Nat) {k : ℤ}
    (hk0 : 0 ≤ k) (hk : k ≤ 24) (hn : ((n + 1 : ℕ) : ℝ) ≤ 2 ^ k) (ho : c.octaves = n + 1) (hw : c.weightedStrength seed pos = 0) (hg : |c.gain seed pos| ≤ 1) :
    |ridged L c source seed pos - octaveSum (c.gain seed pos) (fun i => 1 - 2 * |source (seed + BitVec.ofNat 32 i) (octavePos c.lacunarity i pos)|) (n + 1)| ≤
      (n * (n + 1 + 2 ^ k) + (n + 1)) / 2 ^ 25 := by
  let folded : Src := fun s p => add (mul |source s p| (-2)) 1
  have hf : ∀ s p, |folded s p| ≤ 1 := fun s p => ridge_mem (abs_nonneg _) (hs s p)
  have hfr : ∀ s p, Rep (folded s p) := fun s p => rep_fl _
  have e0 : mul (folded seed pos) 1 = folded seed pos := by unfold mul; rw [mul_one, fl_rep (hfr _ _)]
  have hfe : ∀ s p, |folded s p - (1 - 2 * |source s p|)| ≤ U := by
    intro s p
    have ra : Rep (|source s p| * 2) := by
      have := rep_mul_pow_nonneg (rep_abs (hr s p)) (k := 1) (by norm_num)
      simpa using this
    have e : mul |source s p| (-2) = -(|source s p| * 2) := by
      unfold mul
      rw [show |source s p| * -2 = -(|source s p| * 2) by ring, fl_rep (rep_neg ra)]
    have := rnd1 (x := -(|source s p| * 2) + 1) (by
      have h1 := hs s p; have h0 := abs_nonneg (source s p)
      rw [abs_le]; constructor <;> linarith)
    simp only [folded, e, add]
    rw [show 1 - 2 * |source s p| = -(|source s p| * 2) + 1 by ring]
    exact this
  have h1 := C64_fbm_error L c folded hf hfr seed pos n hk0 hk hn ho hw hg
  have e1 : ridged L c source seed pos = fbm L c folded seed pos := by
    unfold ridged fbm
    simp only [hw]
    exact ridgedLoop_zero L source _ _ _ _ _ _ _ _ _ rep_one
  have h2 : ∀ m : Nat, |octaveSum (c.gain seed pos) (fun i => folded (seed + BitVec.ofNat 32 i) (octavePos c.lacunarity i pos)) m -
      octaveSum (c.gain seed pos) (fun i => 1 - 2 * |source (seed + BitVec.ofNat 32 i) (octavePos c.lacunarity i pos)|) m| ≤ m * U := by
    intro m
    induction m with
    | zero => simp [octaveSum]
    | succ m ih =>
      rw [octaveSum_succ, octaveSum_succ, add_sub_add_comm, ← mul_sub]
      refine (abs_add_le _ _).trans ?_
      rw [abs_mul, abs_pow]
      have h := mul_le_mul (pow_le_one₀ (abs_nonneg _) hg (n := m)) (hfe (seed + BitVec.ofNat 32 m) (octavePos c.lacunarity m pos)) (abs_nonneg _) zero_le_one
      push_cast
      linarith
  have h3 := h2 (n + 1)
  rw [e1]
  have h4 := abs_add_le _ _ |>.trans (add_le_add h1 h3)
  rw [sub_add_sub_cancel] at h4
  refine h4.trans (le_of_eq ?_)
  unfold U; push_cast; ring

/-- **C64**: with lacunarity 2 the octave positions are exact, the position times `2^i`. -/
theorem C64_positions (pos : Pos) (hp : ∀ x ∈ pos, Rep x) (i : Nat) : octavePos 2 i pos = pos.map (· * 2 ^ i) := by
  induction i generalizing pos with
  | zero => simp [octavePos]
  | succ i ih =>
    have e : pos.map (mul · 2) = pos.map (· * 2) := by
      refine List.map_congr_left fun x hx => ?_
      have := rep_mul_pow_nonneg (hp x hx) (k := 1) (by norm_num)
      unfold mul; rw [fl_rep (by simpa using this)]
    rw [octavePos, e, ih, List.map_map]
    · refine List.map_congr_left fun x _ => ?_
      simp only [Function.comp]; rw [pow_succ]; ring
    · intro y hy
      obtain ⟨x, hx, rfl⟩ := List.mem_map.mp hy
      have := rep_mul_pow_nonneg (hp x hx) (k := 1) (by norm_num)
      simpa using this

/-- The default configuration of the fractals: gain 1/2, weighted strength 0, 3 octaves, lacunarity 2. -/
def defaultCfg : Cfg := { gain := Src.const (1 / 2), weightedStrength := Src.const 0, octaves := 3, lacunarity := 2 }

example (L : Level) (source : Src) (hs : ∀ s p, |source s p| ≤ 1) (hr : ∀ s p, Rep (source s p)) (seed : I32) (pos : Pos) :
    |fbm L defaultCfg source seed pos| ≤ 2 ∧
    |fbm L defaultCfg source seed pos - octaveSum (1 / 2) (fun i => source (seed + BitVec.ofNat 32 i) (octavePos 2 i pos)) 3| ≤ 14 / 2 ^ 25 := by
  constructor
  · exact (C64_bounded_by_peak L defaultCfg source hs seed pos (le_refl 0) zero_le_one).1.trans ((C64_peak _ _).1 (by simp only [defaultCfg, Src.const]; rw [abs_of_pos] <;> norm_num))
  · have := C64_fbm_error L defaultCfg source hs hr seed pos 2 (k := 2) (by norm_num) (by norm_num) (by norm_num) rfl rfl (by simp only [defaultCfg, Src.const]; rw [abs_of_pos] <;> norm_num)
    refine this.trans ?_
    norm_num

example (L : Level) (source : Src) (hs : ∀ s p, |source s p| ≤ 1) (hr : ∀ s p, Rep (source s p)) (seed : I32) (pos : Pos) :
    |ridged L defaultCfg source seed pos - octaveSum (1 / 2) (fun i => 1 - 2 * |source (seed + BitVec.ofNat 32 i) (octavePos 2 i pos)|) 3| ≤ 17 / 2 ^ 25 := by
  have := C64_ridged_error L defaultCfg source hs hr seed pos 2 (k := 2) (by norm_num) (by norm_num) (by norm_num) rfl rfl (by simp only [defaultCfg, Src.const]; rw [abs_of_pos] <;> norm_num)
  refine this.trans ?_
  norm_num

end
end FastNoise.F32
