import Verif.ModifiersLemmas
/-! # C30 (modifiers and blends honour their ranges) and C31 (ConvertRGBA8) -/
namespace FastNoise.Modifiers
open FastNoise.Hash FastNoise.Num FastNoise.Basic

/-! ## C30: Remap -/

/-- Specification of Remap: the affine map taking the from range to the to range. -/
noncomputable def affine (fromMin fromMax toMin toMax v : ℝ) : ℝ := ((fromMax - v) * toMin + (v - fromMin) * toMax) / (fromMax - fromMin)

/-- **C30**, Remap without clamping: the affine map that sends From Min to To Min and From Max to To Max. -/
theorem C30_remap (fromMin fromMax toMin toMax source : Src) (seed : I32) (pos : Pos) (h : fromMin seed pos ≠ fromMax seed pos) :
    remap false fromMin fromMax toMin toMax source seed pos =
      affine (fromMin seed pos) (fromMax seed pos) (toMin seed pos) (toMax seed pos) (source seed pos) := by
  unfold remap affine
  have : fromMax seed pos - fromMin seed pos ≠ 0 := sub_ne_zero.mpr h.symm
  simp only [Bool.false_eq_true, if_false]
  field_simp; ring

theorem C30_remap_ends (a b c d : ℝ) (h : a ≠ b) : affine a b c d a = c ∧ affine a b c d b = d := by
  have : b - a ≠ 0 := sub_ne_zero.mpr h.symm
  unfold affine
  constructor <;> (field_simp; ring)

/-- **C30**, Remap with clamping: within the to range, and the affine value wherever that already is. -/
theorem C30_remap_clamped (fromMin fromMax toMin toMax source : Src) (seed : I32) (pos : Pos) (h : fromMin seed pos ≠ fromMax seed pos)
    (ht : toMin seed pos ≤ toMax seed pos) :
    let v := remap true fromMin fromMax toMin toMax source seed pos
    let w := affine (fromMin seed pos) (fromMax seed pos) (toMin seed pos) (toMax seed pos) (source seed pos)
    toMin seed pos ≤ v ∧ v ≤ toMax seed pos ∧ (toMin seed pos ≤ w → w ≤ toMax seed pos → v = w) ∧
      (w < toMin seed pos → v = toMin seed pos) ∧ (toMax seed pos < w → v = toMax seed pos) := by
  have e : remap true fromMin fromMax toMin toMax source seed pos =
      min (max (remap false fromMin fromMax toMin toMax source seed pos) (toMin seed pos)) (toMax seed pos) := rfl
  intro v w
  have hv : v = min (max w (toMin seed pos)) (toMax seed pos) := by simp only [v, w, e, C30_remap _ _ _ _ _ _ _ h]
  rw [hv]
  refine ⟨le_min (le_max_right _ _) ht, min_le_right _ _, ?_, ?_, ?_⟩
  · intro h1 h2; rw [max_eq_left h1, min_eq_left h2]
  · intro h1; rw [max_eq_right h1.le, min_eq_left ht]
  · intro h1; rw [max_eq_left (by linarith), min_eq_right h1.le]

/-- With an inverted to range (To Min above To Max, which without clamping flips the values) clamping collapses the output to the constant To Max. -/
theorem C30_remap_clamp_inverted (fromMin fromMax toMin toMax source : Src) (seed : I32) (pos : Pos) (ht : toMax seed pos < toMin seed pos) :
    remap true fromMin fromMax toMin toMax source seed pos = toMax seed pos := by
  unfold remap
  simp only [if_true]
  exact min_eq_right (ht.le.trans (le_max_right _ _))

example : remap false (Src.const (-1)) (Src.const 1) (Src.const 1) (Src.const 0) (Src.const 0.5) 7 [0, 0] = 0.25 ∧
    remap true (Src.const (-1)) (Src.const 1) (Src.const 1) (Src.const 0) (Src.const 0.5) 7 [0, 0] = 0 := by
  constructor
  · rw [C30_remap _ _ _ _ _ _ _ (by norm_num [Src.const])]; norm_num [affine, Src.const]
  · rw [C30_remap_clamp_inverted _ _ _ _ _ _ _ (by norm_num [Src.const])]; rfl

/-! ## C30: PingPong -/

theorem pingPong_reduce (t : ℝ) : 0 ≤ t - (⌊t * 0.5⌋ : ℤ) * 2 ∧ t - (⌊t * 0.5⌋ : ℤ) * 2 < 2 := by
  have h1 := Int.floor_le (t * 0.5)
  have h2 := Int.lt_floor_add_one (t * 0.5)
  constructor <;> linarith

/-- **C30**, PingPong: the output is within [0, 1], inputs within [0, 1] are unchanged, and the output is the distance from the input to the nearest
even integer (so it bounces with period 2, continuously). -/
theorem C30_pingpong (strength source : Src) (seed : I32) (pos : Pos) :
    let t := source seed pos * strength seed pos
    let v := pingPong strength source seed pos
    0 ≤ v ∧ v ≤ 1 ∧ (0 ≤ t → t ≤ 1 → v = t) ∧ (∃ k : ℤ, v = |t - 2 * k|) ∧ ∀ k : ℤ, v ≤ |t - 2 * k| := by
  intro t v
  have hv : v = pingPongFn t := rfl
  have hr := pingPong_reduce t
  have hval : (v = t - (⌊t * 0.5⌋ : ℤ) * 2 ∧ t - (⌊t * 0.5⌋ : ℤ) * 2 < 1) ∨ (v = 2 - (t - (⌊t * 0.5⌋ : ℤ) * 2) ∧ 1 ≤ t - (⌊t * 0.5⌋ : ℤ) * 2) := by
    rw [hv]; unfold pingPongFn; simp only []
    split_ifs with h
    · exact Or.inl ⟨rfl, h⟩
    · exact Or.inr ⟨rfl, not_lt.mp h⟩
  refine ⟨?_, ?_, ?_, ?_, ?_⟩
  · rcases hval with ⟨e, h⟩ | ⟨e, h⟩ <;> rw [e] <;> linarith
  · rcases hval with ⟨e, h⟩ | ⟨e, h⟩ <;> rw [e] <;> linarith
  · intro h0 h1
    have hf : ⌊t * 0.5⌋ = 0 := by rw [Int.floor_eq_zero_iff]; constructor <;> norm_num <;> linarith
    rw [hf] at hval
    rcases hval with ⟨e, h⟩ | ⟨e, h⟩ <;> rw [e] <;> norm_num at h ⊢
    linarith
  · rcases hval with ⟨e, h⟩ | ⟨e, h⟩
    · refine ⟨⌊t * 0.5⌋, ?_⟩
      rw [e, mul_comm (2 : ℝ), abs_of_nonneg hr.1]
    · refine ⟨⌊t * 0.5⌋ + 1, ?_⟩
      rw [e, abs_of_nonpos] <;> push_cast <;> linarith [hr.2]
  · intro k
    generalize ⌊t * 0.5⌋ = f at hval hr
    rcases le_or_gt k f with hk | hk
    · have : (k : ℝ) ≤ f := by exact_mod_cast hk
      have h2 : t - 2 * k ≤ |t - 2 * k| := le_abs_self _
      rcases hval with ⟨e, h⟩ | ⟨e, h⟩ <;> rw [e] <;> linarith
    · have : (f : ℝ) + 1 ≤ k := by exact_mod_cast hk
      have h2 : -(t - 2 * k) ≤ |t - 2 * k| := neg_le_abs _
      rcases hval with ⟨e, h⟩ | ⟨e, h⟩ <;> rw [e] <;> linarith

/-- The documentation has values reflected where they "go beyond -1.0 or 1.0"; negative values are in fact already reflected at 0. -/
theorem C30_pingpong_reflects_at_zero (strength source : Src) (seed : I32) (pos : Pos) (h : source seed pos * strength seed pos < 0) :
    pingPong strength source seed pos ≠ source seed pos * strength seed pos := by
  have := (C30_pingpong strength source seed pos).1
  intro e
  rw [e] at this
  linarith

example : pingPong (Src.const 2) (Src.const (-0.25)) 1 [0, 0] = 0.5 := by
  have : ⌊(-0.25 * 2 : ℝ) * 0.5⌋ = -1 := by rw [Int.floor_eq_iff]; norm_num
  unfold pingPong pingPongFn Src.const
  rw [this]; norm_num

/-! ## C30: Terrace -/

/-- The step count in effect after a sequence of setter calls: the last one set, 1 at first. -/
def lastStepCount : List TerraceOp → ℝ → ℝ
  | [], c => c
  | .stepCount c :: r, _ => lastStepCount r c
  | _ :: r, c => lastStepCount r c

/-- The smoothness in effect: the last one set, constant or generator, 0 at first. -/
noncomputable def lastSmoothness : List TerraceOp → Src → Src
  | [], s => s
  | .smoothness s :: r, _ => lastSmoothness r (Src.const s)
  | .smoothnessGen g :: r, _ => lastSmoothness r g
  | _ :: r, s => lastSmoothness r s

/-- Auxiliary form of `terraceSpec`, also for negative smoothness. -/
noncomputable def terraceAux (c s v : ℝ) : ℝ := if s = 0 then roundEven (v * c) / c else (roundEven (v * c) + terraceDiff (roundEven (v * c)) (v * c) (1 + 1 / s)) / c

theorem terrace_foldl (source : Src) (seed : I32) (pos : Pos) : ∀ (ops : List TerraceOp) (t : TerraceSt) (sm : Src),
    t.stepCountRecip = 1 / t.stepCount → (t.smoothGen = none → sm = Src.const t.smoothConst ∧ (t.smoothConst ≠ 0 → t.smoothRecip = 1 + 1 / t.smoothConst)) →
    (∀ g, t.smoothGen = some g → sm = g) →
    terrace (ops.foldl TerraceSt.set t) source seed pos = terraceAux (lastStepCount ops t.stepCount) (lastSmoothness ops sm seed pos) (source seed pos)
  | [], t, sm, h1, h2, h3 => by
    simp only [List.foldl_nil, lastStepCount, lastSmoothness]
    unfold terrace terraceAux
    cases hg : t.smoothGen with
    | none =>
      obtain ⟨e, hr⟩ := h2 hg
      simp only [e, Src.const, h1]
      by_cases a : t.smoothConst = 0
      · rw [if_neg (not_not.mpr a), if_pos a]; ring
      · rw [if_pos a, if_neg a, hr a]; ring
    | some g =>
      simp only [h3 g hg, h1]
      by_cases a : g seed pos = 0
      · rw [if_neg (not_not.mpr a), if_pos a]; ring
      · rw [if_pos a, if_neg a]; ring
  | .stepCount c :: r, t, sm, h1, h2, h3 => by
    rw [List.foldl_cons, terrace_foldl source seed pos r (t.set (.stepCount c)) sm rfl h2 h3]; rfl
  | .smoothness s :: r, t, sm, h1, h2, h3 => by
    have e : (t.set (.smoothness s)).stepCount = t.stepCount := by unfold TerraceSt.set; simp only []; split_ifs <;> rfl
    have e2 : (t.set (.smoothness s)).stepCountRecip = t.stepCountRecip := by unfold TerraceSt.set; simp only []; split_ifs <;> rfl
    have e3 : (t.set (.smoothness s)).smoothGen = none := by unfold TerraceSt.set; simp only []; split_ifs <;> rfl
    have e4 : (t.set (.smoothness s)).smoothConst = s := by unfold TerraceSt.set; simp only []; split_ifs <;> rfl
    rw [List.foldl_cons, terrace_foldl source seed pos r (t.set (.smoothness s)) (Src.const s) (by rw [e, e2, h1])
      (fun _ => ⟨by rw [e4], fun hs => by rw [e4] at hs ⊢; unfold TerraceSt.set; simp only []; rw [if_pos hs]⟩)
      (fun g hg => by rw [e3] at hg; cases hg), e]; rfl
  | .smoothnessGen g :: r, t, sm, h1, h2, h3 => by
    rw [List.foldl_cons, terrace_foldl source seed pos r (t.set (.smoothnessGen g)) g h1 (fun h => by cases h) (fun g' hg => by cases hg; rfl)]; rfl

/-- Specification of Terrace for step count `c` and smoothness `s ≥ 0`: the staircase with step 1/c; for s > 0 a step is flat around its centre and
meets its neighbours half way up, with slope 1 + 1/s: within a step, `u` in [-1/2, 1/2] becomes ±max(0, 1/2 - (1/2 - |u|)(1 + 1/s)). -/
noncomputable def terraceSpec (c s v : ℝ) : ℝ :=
  let n : ℝ := roundEven (v * c)
  let u := v * c - n
  if s = 0 then n / c else (n + (if u < 0 then -1 else 1) * max 0 (1 / 2 - (1 / 2 - |u|) * (1 + 1 / s))) / c

/-- **C30**, Terrace: whatever setters were called, the output is the specified staircase of the last step count and (non-negative) smoothness set;
the precomputed reciprocals are never stale, and a constant smoothness gives the same as a generator of that value. -/
theorem C30_terrace (ops : List TerraceOp) (source : Src) (seed : I32) (pos : Pos) (h : 0 ≤ lastSmoothness ops (Src.const 0) seed pos) :
    terrace (TerraceSt.after ops) source seed pos =
      terraceSpec (lastStepCount ops 1) (lastSmoothness ops (Src.const 0) seed pos) (source seed pos) := by
  unfold TerraceSt.after
  rw [terrace_foldl source seed pos ops {} (Src.const 0) (by norm_num) (fun _ => ⟨rfl, fun h => absurd rfl h⟩) (fun g hg => by cases hg)]
  generalize lastSmoothness ops (Src.const 0) seed pos = s at *
  unfold terraceAux terraceSpec
  simp only []
  by_cases h0 : s = 0
  · rw [if_pos h0, if_pos h0]
  · have : 0 < 1 / s := one_div_pos.mpr (lt_of_le_of_ne h (Ne.symm h0))
    rw [if_neg h0, if_neg h0, terraceDiff_shape _ _ _ (by linarith)]; rfl

/-- **C30**, Terrace with smoothness 0: a nearest multiple of 1 / step count. -/
theorem C30_terrace_steps (c v : ℝ) (hc : c ≠ 0) : (∃ n : ℤ, terraceSpec c 0 v = n / c) ∧ |terraceSpec c 0 v - v| ≤ 1 / (2 * |c|) := by
  have e : terraceSpec c 0 v = roundEven (v * c) / c := by simp [terraceSpec]
  refine ⟨⟨_, e⟩, ?_⟩
  have h := abs_sub_roundEven (v * c)
  have e2 : roundEven (v * c) / c - v = -(v * c - roundEven (v * c)) / c := by field_simp; ring
  rw [e, e2, abs_div, abs_neg]
  have := abs_pos.mpr hc
  rw [div_le_div_iff₀ this (by positivity)]
  nlinarith

theorem terraceSpec_pos (c s v : ℝ) (hs : 0 < s) : terraceSpec c s v = stairs (1 + 1 / s) (v * c) / c := by
  have : 0 < 1 / s := by positivity
  unfold terraceSpec stairs
  simp only []
  rw [if_neg hs.ne']; rfl

/-- **C30**, Terrace with positive smoothness: between the input and the plain staircase, hence still within half a step of the input. -/
theorem C30_terrace_smooth_between (c s v : ℝ) (hc : c ≠ 0) (hs : 0 < s) :
    min v (terraceSpec c 0 v) ≤ terraceSpec c s v ∧ terraceSpec c s v ≤ max v (terraceSpec c 0 v) ∧ |terraceSpec c s v - v| ≤ 1 / (2 * |c|) := by
  have hr : (1 : ℝ) ≤ 1 + 1 / s := by have : 0 < 1 / s := by positivity
                                      linarith
  have hb := abs_sub_roundEven (v * c)
  have h := stepShape_abs (1 + 1 / s) (v * c - roundEven (v * c)) hr hb
  have e0 : terraceSpec c 0 v = roundEven (v * c) / c := by simp [terraceSpec]
  have h0 := (C30_terrace_steps c v hc).2
  -- the point is r + g with g between 0 and u = v c - r; divide by c
  have hbetween : ∃ θ : ℝ, 0 ≤ θ ∧ θ ≤ 1 ∧ terraceSpec c s v = (1 - θ) * terraceSpec c 0 v + θ * v := by
    rw [terraceSpec_pos c s v hs, e0]
    unfold stairs
    generalize hu : v * c - (roundEven (v * c) : ℝ) = u at *
    generalize stepShape (1 + 1 / s) u = g at *
    have hv : v = (roundEven (v * c) + u) / c := by rw [← hu]; field_simp; ring
    by_cases hz : u = 0
    · have hg : g = 0 := by rw [hz, abs_zero] at h; exact abs_eq_zero.mp (le_antisymm h.1 (abs_nonneg _))
      exact ⟨0, le_rfl, by norm_num, by rw [hg]; ring⟩
    · refine ⟨g / u, ?_, ?_, ?_⟩
      · rw [← mul_div_mul_right g u hz]; exact div_nonneg h.2 (mul_self_nonneg u)
      · refine (le_abs_self _).trans ?_
        rw [abs_div, div_le_one (abs_pos.mpr hz)]; exact h.1
      · conv_rhs => rw [show g / u * v = g / u * ((roundEven (v * c) + u) / c) by rw [← hv]]
        field_simp; ring
  obtain ⟨θ, t0, t1, e⟩ := hbetween
  rw [e]
  refine ⟨?_, ?_, ?_⟩
  · rcases le_total v (terraceSpec c 0 v) with hh | hh
    · rw [min_eq_left hh]; nlinarith
    · rw [min_eq_right hh]; nlinarith
  · rcases le_total v (terraceSpec c 0 v) with hh | hh
    · rw [max_eq_right hh]; nlinarith
    · rw [max_eq_left hh]; nlinarith
  · rw [show (1 - θ) * terraceSpec c 0 v + θ * v - v = (1 - θ) * (terraceSpec c 0 v - v) by ring, abs_mul, abs_of_nonneg (by linarith)]
    nlinarith [abs_nonneg (terraceSpec c 0 v - v)]

/-- **C30**, Terrace never reverses the order of values (smoothness not negative). -/
theorem C30_terrace_monotone (c s v w : ℝ) (hc : c ≠ 0) (hs : 0 ≤ s) (h : v ≤ w) : terraceSpec c s v ≤ terraceSpec c s w := by
  have main : ∀ f : ℝ → ℝ, (∀ x y, x ≤ y → f x ≤ f y) → f (v * c) / c ≤ f (w * c) / c := by
    intro f hf
    rcases lt_or_gt_of_ne hc with hn | hp
    · exact (div_le_div_right_of_neg hn).mpr (hf _ _ (by nlinarith))
    · exact div_le_div_of_nonneg_right (hf _ _ (by nlinarith)) hp.le
  rcases eq_or_lt_of_le hs with e | hpos
  · rw [← e]
    simp only [terraceSpec, if_true]
    exact main (fun x => (roundEven x : ℝ)) (fun x y hxy => by exact_mod_cast roundEven_mono hxy)
  · rw [terraceSpec_pos c s v hpos, terraceSpec_pos c s w hpos]
    have : 0 < 1 / s := by positivity
    exact main (stairs (1 + 1 / s)) (fun x y hxy => (stairs_lip _ x y (by linarith) hxy).1)

/-- **C30**, Terrace: a positive smoothness makes the staircase continuous: it changes at most 1 + 1/s times as fast as its input. -/
theorem C30_terrace_lipschitz (c s v w : ℝ) (hc : c ≠ 0) (hs : 0 < s) : |terraceSpec c s v - terraceSpec c s w| ≤ (1 + 1 / s) * |v - w| := by
  have hr : 0 < 1 / s := by positivity
  have key : ∀ x y : ℝ, |stairs (1 + 1 / s) x - stairs (1 + 1 / s) y| ≤ (1 + 1 / s) * |x - y| := by
    intro x y
    rcases le_total x y with h | h
    · have := stairs_lip (1 + 1 / s) x y (by linarith) h
      rw [abs_sub_comm, abs_of_nonneg (by linarith [this.1]), abs_sub_comm x y, abs_of_nonneg (by linarith : (0 : ℝ) ≤ y - x)]; exact this.2
    · have := stairs_lip (1 + 1 / s) y x (by linarith) h
      rw [abs_of_nonneg (by linarith [this.1]), abs_of_nonneg (by linarith : (0 : ℝ) ≤ x - y)]; exact this.2
  rw [terraceSpec_pos c s v hs, terraceSpec_pos c s w hs, ← sub_div, abs_div, div_le_iff₀ (abs_pos.mpr hc)]
  refine (key _ _).trans (le_of_eq ?_)
  rw [← sub_mul, abs_mul]; ring

example : ∃ ops source, terrace (TerraceSt.after ops) source 3 [0, 0] = terraceSpec 4 0.5 0.3 :=
  ⟨[.smoothness 2, .stepCount 4, .smoothness 0, .smoothness 0.5], Src.const 0.3, C30_terrace _ _ _ _ (by norm_num [lastSmoothness, Src.const])⟩

/-! ## C30: Fade -/

/-- The easing functions run from 0 to 1. -/
noncomputable def ease : Interpolation → ℝ → ℝ
  | .linear, t => t
  | .hermite, t => t * t * (3 - 2 * t)
  | .quintic, t => t * t * t * (t * (t * 6 - 15) + 10)

theorem ease_range (i : Interpolation) {t : ℝ} (h0 : 0 ≤ t) (h1 : t ≤ 1) : 0 ≤ ease i t ∧ ease i t ≤ 1 ∧ ease i 0 = 0 ∧ ease i 1 = 1 := by
  cases i
  · exact ⟨h0, h1, rfl, rfl⟩
  · have := hermite_mem h0 h1
    simp only [interpHermite, fnma] at this
    refine ⟨?_, ?_, by simp [ease], by norm_num [ease]⟩ <;> (simp only [ease]; nlinarith)
  · have := quintic_mem h0 h1
    simp only [interpQuintic, Num.fma] at this
    refine ⟨?_, ?_, by simp [ease], by norm_num [ease]⟩ <;> (simp only [ease]; nlinarith)

/-- **C30**, Fade: the weighted mean of A and B whose weight runs from 0 at Fade Min to 1 at Fade Max through the easing function. -/
theorem C30_fade (i : Interpolation) (a b f lo hi : Src) (seed : I32) (pos : Pos) (h : lo seed pos ≠ hi seed pos) :
    let θ := ease i (max 0 (min 1 ((f seed pos - lo seed pos) / (hi seed pos - lo seed pos))))
    fade i a b f lo hi seed pos = (1 - θ) * a seed pos + θ * b seed pos := by
  unfold fade
  simp only []
  rw [if_neg (sub_ne_zero.mpr h.symm)]
  cases i <;> simp only [ease, lerp, interpHermite, interpQuintic, Num.fma, fnma] <;> ring

/-- **C30**, Fade: the output is between A and B, always. -/
theorem C30_fade_between (i : Interpolation) (a b f lo hi : Src) (seed : I32) (pos : Pos) :
    min (a seed pos) (b seed pos) ≤ fade i a b f lo hi seed pos ∧ fade i a b f lo hi seed pos ≤ max (a seed pos) (b seed pos) := by
  by_cases h : lo seed pos = hi seed pos
  · unfold fade
    simp only [h, sub_self, if_true]
    exact lerp_mem ⟨min_le_left _ _, le_max_left _ _⟩ ⟨min_le_right _ _, le_max_right _ _⟩ (by norm_num) (by norm_num)
  · have e := C30_fade i a b f lo hi seed pos h
    simp only [] at e
    have hr := ease_range i (t := max 0 (min 1 ((f seed pos - lo seed pos) / (hi seed pos - lo seed pos)))) (le_max_left _ _) (max_le (by norm_num) (min_le_left _ _))
    rw [e]
    generalize ease i (max 0 (min 1 ((f seed pos - lo seed pos) / (hi seed pos - lo seed pos)))) = θ at hr
    have := lerp_mem (t := θ) ⟨min_le_left (a seed pos) (b seed pos), le_max_left (a seed pos) (b seed pos)⟩ ⟨min_le_right _ _, le_max_right _ _⟩ hr.1 hr.2.1
    have e2 : lerp (a seed pos) (b seed pos) θ = (1 - θ) * a seed pos + θ * b seed pos := by simp only [lerp, Num.fma]; ring
    rw [e2] at this; exact this

/-- **C30**, Fade: all A at (and before) Fade Min, all B at (and beyond) Fade Max, for ranges of either orientation; the mean for an empty range. -/
theorem C30_fade_ends (i : Interpolation) (a b f lo hi : Src) (seed : I32) (pos : Pos) :
    (lo seed pos < hi seed pos → f seed pos ≤ lo seed pos → fade i a b f lo hi seed pos = a seed pos) ∧
    (lo seed pos < hi seed pos → hi seed pos ≤ f seed pos → fade i a b f lo hi seed pos = b seed pos) ∧
    (hi seed pos < lo seed pos → lo seed pos ≤ f seed pos → fade i a b f lo hi seed pos = a seed pos) ∧
    (hi seed pos < lo seed pos → f seed pos ≤ hi seed pos → fade i a b f lo hi seed pos = b seed pos) ∧
    (lo seed pos = hi seed pos → fade i a b f lo hi seed pos = (a seed pos + b seed pos) / 2) := by
  have r0 := (ease_range i (t := 0) le_rfl (by norm_num)).2.2
  have key0 : lo seed pos ≠ hi seed pos → (f seed pos - lo seed pos) / (hi seed pos - lo seed pos) ≤ 0 → fade i a b f lo hi seed pos = a seed pos := by
    intro h hq
    have e := C30_fade i a b f lo hi seed pos h
    simp only [] at e
    rw [e, min_eq_right (by linarith), max_eq_left hq, r0.1]; ring
  have key1 : lo seed pos ≠ hi seed pos → 1 ≤ (f seed pos - lo seed pos) / (hi seed pos - lo seed pos) → fade i a b f lo hi seed pos = b seed pos := by
    intro h hq
    have e := C30_fade i a b f lo hi seed pos h
    simp only [] at e
    rw [e, min_eq_left hq, max_eq_right (by norm_num), r0.2]; ring
  refine ⟨?_, ?_, ?_, ?_, ?_⟩
  · intro h h1; exact key0 h.ne (div_nonpos_of_nonpos_of_nonneg (by linarith) (by linarith))
  · intro h h1; exact key1 h.ne (by rw [one_le_div (by linarith)]; linarith)
  · intro h h1; exact key0 h.ne' (div_nonpos_of_nonneg_of_nonpos (by linarith) (by linarith))
  · intro h h1; exact key1 h.ne' (by rw [one_le_div_of_neg (by linarith)]; linarith)
  · intro h
    unfold fade
    simp only [h, sub_self, if_true, lerp, Num.fma]
    ring

/-! ## C30: smooth minimum and maximum -/

/-- The smoothness that takes effect: its absolute value, at least FLT_MIN, the smallest normal number. -/
noncomputable def effSmooth (s : ℝ) : ℝ := max (2 ^ (-126 : ℤ)) |s|

/-- **C30**, MinSmooth: never above the minimum of its inputs, at most a sixth of the smoothness below it, and exactly the minimum where the
inputs are at least the smoothness apart. -/
theorem C30_min_smooth (smoothness lhs rhs : Src) (seed : I32) (pos : Pos) :
    let a := lhs seed pos
    let b := rhs seed pos
    let s := effSmooth (smoothness seed pos)
    let v := minSmooth smoothness lhs rhs seed pos
    v ≤ min a b ∧ min a b - s / 6 ≤ v ∧ (s ≤ |a - b| → v = min a b) ∧ (a = b → v = a - s / 6) := by
  intro a b s v
  have hs : 0 < s := lt_of_lt_of_le (by positivity) (le_max_left _ _)
  have e : v = min a b - s / 6 * (max 0 (1 - |a - b| / s)) ^ 3 := minSmoothFn_eq a b _
  have h0 : 0 ≤ max 0 (1 - |a - b| / s) := le_max_left _ _
  have h1 : max 0 (1 - |a - b| / s) ≤ 1 := max_le (by norm_num) (by have := div_nonneg (abs_nonneg (a - b)) hs.le; linarith)
  have h3 : (max 0 (1 - |a - b| / s)) ^ 3 ≤ 1 := pow_le_one₀ h0 h1
  have h3' : 0 ≤ (max 0 (1 - |a - b| / s)) ^ 3 := by positivity
  rw [e]
  refine ⟨?_, ?_, ?_, ?_⟩
  · have : 0 ≤ s / 6 * (max 0 (1 - |a - b| / s)) ^ 3 := by positivity
    linarith
  · have : s / 6 * (max 0 (1 - |a - b| / s)) ^ 3 ≤ s / 6 * 1 := mul_le_mul_of_nonneg_left h3 (by positivity)
    linarith
  · intro hd
    rw [max_eq_left (by rw [sub_nonpos, one_le_div hs]; exact hd)]; ring
  · intro hab
    rw [hab]
    simp

/-- **C30**, MinSmooth: symmetric, and monotone in both inputs. -/
theorem C30_min_smooth_monotone (s lhs rhs lhs' rhs' : Src) (seed : I32) (pos : Pos) (h1 : lhs seed pos ≤ lhs' seed pos) (h2 : rhs seed pos ≤ rhs' seed pos) :
    minSmooth s lhs rhs seed pos ≤ minSmooth s lhs' rhs' seed pos ∧ minSmooth s lhs rhs seed pos = minSmooth s rhs lhs seed pos := by
  refine ⟨?_, minSmoothFn_comm _ _ _⟩
  refine (minSmoothFn_mono_left _ _ h1).trans ?_
  rw [minSmoothFn_comm]
  refine (minSmoothFn_mono_left _ _ h2).trans (le_of_eq (minSmoothFn_comm _ _ _))

/-- **C30**, MaxSmooth mirrors MinSmooth. -/
theorem C30_max_smooth (smoothness lhs rhs : Src) (seed : I32) (pos : Pos) :
    let a := lhs seed pos
    let b := rhs seed pos
    let s := effSmooth (smoothness seed pos)
    let v := maxSmooth smoothness lhs rhs seed pos
    max a b ≤ v ∧ v ≤ max a b + s / 6 ∧ (s ≤ |a - b| → v = max a b) ∧ (a = b → v = a + s / 6) := by
  intro a b s v
  have h := C30_min_smooth smoothness (fun s p => -lhs s p) (fun s p => -rhs s p) seed pos
  simp only [] at h
  have e : v = -minSmooth smoothness (fun s p => -lhs s p) (fun s p => -rhs s p) seed pos := rfl
  have em : min (-lhs seed pos) (-rhs seed pos) = -max a b := min_neg_neg _ _
  have ea : |(-lhs seed pos) - (-rhs seed pos)| = |a - b| := by rw [show (-lhs seed pos) - (-rhs seed pos) = -(a - b) by simp only [a, b]; ring, abs_neg]
  rw [em, ea] at h
  rw [e]
  refine ⟨by linarith [h.1], by have := h.2.1; simp only [s]; linarith, fun hd => ?_, fun hab => ?_⟩
  · rw [h.2.2.1 hd]; ring
  · rw [h.2.2.2 (by simp only [a, b] at hab; rw [hab])]; simp only [a, s]; ring

/-! ## C30: roots, powers, operators -/

/-- **C30**, SignedSquareRoot: same sign, and its signed square is the input. -/
theorem C30_signed_sqrt (relaxed : Bool) (source : Src) (seed : I32) (pos : Pos) :
    let v := source seed pos
    let r := signedSqrt relaxed source seed pos
    r * |r| = v ∧ (0 ≤ r ↔ 0 ≤ v) := by
  intro v r
  have e : r = if v < 0 then -√|v| else √|v| := by simp only [r, signedSqrt, fastLengthSqrt_eq _ _ (abs_nonneg _)]; rfl
  have hs : √|v| * √|v| = |v| := Real.mul_self_sqrt (abs_nonneg v)
  rw [e]
  split_ifs with h
  · have : 0 < √|v| := Real.sqrt_pos.mpr (abs_pos.mpr h.ne)
    constructor
    · rw [abs_neg, abs_of_pos this, neg_mul, hs, abs_of_neg h]; ring
    · constructor <;> intro <;> linarith
  · rw [abs_of_nonneg (Real.sqrt_nonneg _), hs, abs_of_nonneg (not_lt.mp h)]
    exact ⟨rfl, ⟨fun _ => not_lt.mp h, fun _ => Real.sqrt_nonneg _⟩⟩

/-- **C30**, SignedSquareRoot is monotone. -/
theorem C30_signed_sqrt_monotone (relaxed : Bool) (source source' : Src) (seed : I32) (pos : Pos) (h : source seed pos ≤ source' seed pos) :
    signedSqrt relaxed source seed pos ≤ signedSqrt relaxed source' seed pos := by
  have h1 := C30_signed_sqrt relaxed source seed pos
  have h2 := C30_signed_sqrt relaxed source' seed pos
  simp only [] at h1 h2
  by_contra hc
  push Not at hc
  generalize signedSqrt relaxed source seed pos = r at *
  generalize signedSqrt relaxed source' seed pos = r' at *
  have : r' * |r'| < r * |r| := by
    rcases le_or_gt 0 r' with p' | n'
    · rw [abs_of_nonneg p', abs_of_nonneg (by linarith : 0 ≤ r)]; nlinarith
    · rw [abs_of_neg n']
      rcases le_or_gt 0 r with p | n
      · rw [abs_of_nonneg p]; nlinarith
      · rw [abs_of_neg n]; nlinarith
  rw [h1.1, h2.1] at this
  linarith

/-- **C30**, PowInt: the power, for exponents from 2; smaller exponents give the square. -/
theorem C30_pow_int (mPow : ℤ) (value : Src) (seed : I32) (pos : Pos) :
    powInt mPow value seed pos = value seed pos ^ (max 2 mPow).toNat := by
  unfold powInt
  simp only [powLoop_eq]
  rw [← pow_two, ← pow_add]
  congr 1
  omega

/-- **C30**, PowFloat: positive always, and the power of |value| wherever that is a normal number; so it equals `powf` for positive values only. -/
theorem C30_pow_float (value pow : Src) (seed : I32) (pos : Pos) :
    0 < powFloat value pow seed pos ∧ ((2 : ℝ) ^ (-126 : ℤ) ≤ |value seed pos| → powFloat value pow seed pos = |value seed pos| ^ pow seed pos) ∧
      ((2 : ℝ) ^ (-126 : ℤ) ≤ value seed pos → powFloat value pow seed pos = value seed pos ^ pow seed pos) := by
  have hp : 0 < max |value seed pos| fltMin := lt_of_lt_of_le (by unfold fltMin; positivity) (le_max_right _ _)
  have hf : (0 : ℝ) < 2 ^ (-126 : ℤ) := by positivity
  refine ⟨Real.rpow_pos_of_pos hp _, fun h => ?_, fun h => ?_⟩
  · unfold powFloat fltMin; rw [max_eq_left h]
  · unfold powFloat fltMin; rw [abs_of_pos (by linarith), max_eq_left h]

/-- PowFloat is documented as equivalent to `std::powf`, which it is not for negative values: (-2)^3 comes out as 8. -/
theorem C30_pow_float_negative : powFloat (Src.const (-2)) (Src.const 3) 1 [0, 0] = 8 := by
  have h := (C30_pow_float (Src.const (-2)) (Src.const 3) 1 [0, 0]).2.1
  have hf : (2 : ℝ) ^ (-126 : ℤ) ≤ 1 := by rw [zpow_neg]; exact inv_le_one_of_one_le₀ (by norm_num)
  simp only [Src.const] at h
  have e : |(-2 : ℝ)| = 2 := by norm_num
  rw [e] at h
  rw [h (by linarith), show (3 : ℝ) = ((3 : ℕ) : ℝ) by norm_num, Real.rpow_natCast]
  norm_num

/-- **C30**, Abs, Min and Max. -/
theorem C30_abs_min_max (lhs rhs : Src) (seed : I32) (pos : Pos) :
    0 ≤ absNode lhs seed pos ∧ (absNode lhs seed pos = lhs seed pos ∨ absNode lhs seed pos = -lhs seed pos) ∧
    (blend .min lhs rhs seed pos ≤ lhs seed pos ∧ blend .min lhs rhs seed pos ≤ rhs seed pos ∧
      (blend .min lhs rhs seed pos = lhs seed pos ∨ blend .min lhs rhs seed pos = rhs seed pos)) ∧
    (lhs seed pos ≤ blend .max lhs rhs seed pos ∧ rhs seed pos ≤ blend .max lhs rhs seed pos ∧
      (blend .max lhs rhs seed pos = lhs seed pos ∨ blend .max lhs rhs seed pos = rhs seed pos)) :=
  ⟨abs_nonneg _, abs_choice _, ⟨min_le_left _ _, min_le_right _ _, min_choice _ _⟩, ⟨le_max_left _ _, le_max_right _ _, max_choice _ _⟩⟩

/-- **C30**, operators: Subtract undoes Add, Divide undoes Multiply (by a non-zero value). -/
theorem C30_operators_inverse (lhs rhs : Src) (seed : I32) (pos : Pos) :
    blend .subtract (blend .add lhs rhs) rhs seed pos = lhs seed pos ∧
    (rhs seed pos ≠ 0 → blend .divide (blend .multiply lhs rhs) rhs seed pos = lhs seed pos) := by
  constructor
  · simp [blend]
  · intro h; simp [blend, h]

/-! ## C31 -/

/-- The channels of a pixel stored as 0xAABBGGRR. -/
def chan (w : I32) (i : Nat) : I32 := (w >>> (8 * i)) &&& 0xFF

/-- Specification: the grey level of a source value for a range min < max. -/
noncomputable def grey (mMin mMax v : ℝ) : ℤ := roundEven ((max (min v mMax) mMin - mMin) * (255 / (mMax - mMin)))

/-- All 256 bytes. -/
theorem rgba_bits (n : ℤ) (h0 : 0 ≤ n) (h1 : n ≤ 255) :
    let b := BitVec.ofInt 32 n
    let w : I32 := 0xFF000000 ||| b ||| (b <<< 8) ||| (b <<< 16)
    chan w 3 = 255 ∧ chan w 0 = b ∧ chan w 1 = b ∧ chan w 2 = b ∧ b.toInt = n := by
  have : ∀ k : Fin 256,
      let b := BitVec.ofInt 32 (k.val : ℤ)
      let w : I32 := 0xFF000000 ||| b ||| (b <<< 8) ||| (b <<< 16)
      chan w 3 = 255 ∧ chan w 0 = b ∧ chan w 1 = b ∧ chan w 2 = b ∧ b.toInt = k.val := by set_option maxRecDepth 100000 in decide
  have h := this ⟨n.toNat, by omega⟩
  simp only [Int.toNat_of_nonneg h0] at h
  exact h

theorem grey_range (mMin mMax v : ℝ) (h : mMin ≠ mMax) : 0 ≤ grey mMin mMax v ∧ grey mMin mMax v ≤ 255 := by
  have key : 0 ≤ (max (min v mMax) mMin - mMin) * (255 / (mMax - mMin)) ∧ (max (min v mMax) mMin - mMin) * (255 / (mMax - mMin)) ≤ 255 := by
    rcases lt_or_gt_of_ne h with hlt | hgt
    · have hp : 0 < mMax - mMin := by linarith
      have h0 : 0 ≤ max (min v mMax) mMin - mMin := by have := le_max_right (min v mMax) mMin; linarith
      have h1 : max (min v mMax) mMin - mMin ≤ mMax - mMin := by
        have := max_le (min_le_right v mMax) hlt.le; linarith
      refine ⟨by positivity, ?_⟩
      calc _ ≤ (mMax - mMin) * (255 / (mMax - mMin)) := mul_le_mul_of_nonneg_right h1 (by positivity)
        _ = 255 := by field_simp
    · have e : max (min v mMax) mMin = mMin := max_eq_right ((min_le_right _ _).trans hgt.le)
      rw [e]; norm_num
  have a := roundEven_mono key.1
  have b := roundEven_mono key.2
  rw [show (0 : ℝ) = ((0 : ℤ) : ℝ) by norm_num, roundEven_int] at a
  rw [show (255 : ℝ) = ((255 : ℤ) : ℝ) by norm_num, roundEven_int] at b
  exact ⟨by unfold grey; exact a, by unfold grey; push_cast at b ⊢; exact b⟩

/-- **C31**: alpha is 255 for every source value and every range, even an empty one. -/
theorem C31_opaque (mMin mMax v : ℝ) : chan (rgba8Word mMin mMax v) 3 = 255 := by
  by_cases h : mMin = mMax
  · unfold rgba8Word
    simp only [h, if_true]
    decide
  · have hr := grey_range mMin mMax v h
    unfold rgba8Word
    simp only [if_neg h]
    have e : convertI32 ((max (min v mMax) mMin - mMin) * (255 / (mMax - mMin))) = BitVec.ofInt 32 (grey mMin mMax v) := by
      unfold convertI32
      exact if_pos ⟨le_trans (by norm_num) hr.1, lt_of_le_of_lt hr.2 (by norm_num)⟩
    rw [e]
    exact (rgba_bits _ hr.1 hr.2).1

/-- **C31**: the three colour channels all equal the clamped, scaled source rounded to 0..255. -/
theorem C31_grey (mMin mMax v : ℝ) (h : mMin ≠ mMax) (i : Nat) (hi : i < 3) :
    (chan (rgba8Word mMin mMax v) i).toInt = grey mMin mMax v ∧ 0 ≤ grey mMin mMax v ∧ grey mMin mMax v ≤ 255 := by
  have hr := grey_range mMin mMax v h
  refine ⟨?_, hr⟩
  have e : convertI32 ((max (min v mMax) mMin - mMin) * (255 / (mMax - mMin))) = BitVec.ofInt 32 (grey mMin mMax v) := by
    unfold convertI32
    exact if_pos ⟨le_trans (by norm_num) hr.1, lt_of_le_of_lt hr.2 (by norm_num)⟩
  have hw := rgba_bits _ hr.1 hr.2
  simp only [] at hw
  have key : chan (rgba8Word mMin mMax v) i = BitVec.ofInt 32 (grey mMin mMax v) := by
    unfold rgba8Word
    simp only [if_neg h, e]
    rcases (by omega : i = 0 ∨ i = 1 ∨ i = 2) with rfl | rfl | rfl
    · exact hw.2.1
    · exact hw.2.2.1
    · exact hw.2.2.2.1
  rw [key, hw.2.2.2.2]

/-- **C31**: for an increasing range, black at (and below) min, white at (and above) max, monotone in between. -/
theorem C31_monotone (mMin mMax : ℝ) (h : mMin < mMax) :
    (∀ v w, v ≤ w → grey mMin mMax v ≤ grey mMin mMax w) ∧ (∀ v, v ≤ mMin → grey mMin mMax v = 0) ∧ (∀ v, mMax ≤ v → grey mMin mMax v = 255) := by
  have hp : 0 < mMax - mMin := by linarith
  refine ⟨fun v w hvw => roundEven_mono ?_, fun v hv => ?_, fun v hv => ?_⟩
  · refine mul_le_mul_of_nonneg_right ?_ (by positivity)
    have := max_le_max (min_le_min hvw (le_refl mMax)) (le_refl mMin)
    linarith
  · unfold grey
    rw [min_eq_left (by linarith), max_eq_right hv, sub_self, zero_mul]
    exact_mod_cast roundEven_int 0
  · unfold grey
    rw [min_eq_right hv, max_eq_left h.le, show (mMax - mMin) * (255 / (mMax - mMin)) = ((255 : ℤ) : ℝ) by field_simp; norm_num]
    exact roundEven_int 255

/-- An empty or inverted range always gives black. -/
theorem C31_inverted (mMin mMax v : ℝ) (h : mMax ≤ mMin) : rgba8Word mMin mMax v = 0xFF000000 := by
  rcases eq_or_lt_of_le h with e | hlt
  · unfold rgba8Word; simp only [e, if_true]; decide
  · unfold rgba8Word
    simp only [if_neg hlt.ne']
    rw [max_eq_right ((min_le_right _ _).trans hlt.le), sub_self, zero_mul]
    have : convertI32 0 = 0 := by
      have e := roundEven_int 0
      norm_num at e
      unfold convertI32
      rw [e]; norm_num; rfl
    rw [this]; decide

example : grey (-1) 1 0.5 = 191 := by
  unfold grey
  rw [show (max (min (0.5 : ℝ) 1) (-1) - -1) * (255 / (1 - -1)) = 191.25 by norm_num]
  exact roundEven_eq (by rw [abs_lt]; norm_num)

end FastNoise.Modifiers
