import Verif.LatticeLipschitz
import Verif.LatticeProps
import Verif.FloatPerlinProps
import Verif.SimplexRateProps
/-!
# C75: Value and Perlin noise change at a bounded rate

C36 says that these noises are continuous.  Here: how fast they can change, and from that the distance of the binary32 outputs (C58, C61) from the exact noise at the exact position.
-/
namespace FastNoise.Lattice
open FastNoise.Hash FastNoise.Num FastNoise.Basic FastNoise.Gradient

noncomputable section

theorem hermite_weight : Weight interpHermite (3 / 2) where
  zero := by simp [interpHermite]
  one := by norm_num [interpHermite, fnma]
  mem := fun t h0 h1 => by
    have e : interpHermite t = t * t * (3 - t * 2) := by unfold interpHermite fnma; ring
    rw [e]
    constructor <;> nlinarith [mul_nonneg h0 h0, mul_nonneg (mul_nonneg h0 h0) (by linarith : 0 ≤ 1 - t), mul_nonneg h0 (by linarith : 0 ≤ 1 - t), mul_nonneg (by linarith : 0 ≤ 1 - t) (by linarith : 0 ≤ 1 - t)]
  lip := fun _ _ t0 t1 s0 s1 => F32.hermite_lipschitz t0 t1 s0 s1

theorem quintic_weight : Weight interpQuintic 2 where
  zero := by simp [interpQuintic]
  one := by norm_num [interpQuintic, Num.fma]
  mem := fun _ h0 h1 => quintic_mem h0 h1
  lip := fun _ _ t0 t1 s0 s1 => F32.quintic_lipschitz t0 t1 s0 s1

theorem manhattan_scale (f : ℝ) : ∀ x y : List ℝ, manhattan (scalePositions f x) (scalePositions f y) = manhattan x y * |f|
  | [], _ => by simp [manhattan, scalePositions]
  | _ :: _, [] => by simp [manhattan, scalePositions]
  | a :: x, b :: y => by
    have := manhattan_scale f x y
    simp only [scalePositions, List.map_cons, manhattan_cons] at this ⊢
    rw [this, ← sub_mul, abs_mul]
    ring

theorem valueRaw_lipschitz (seed : I32) (x y : Pos) (hl : x.length = y.length) (hx : ∀ a ∈ x, InRange a) (hy : ∀ a ∈ y, InRange a) :
    |valueRaw seed x - valueRaw seed y| ≤ 3 * valueBounds * manhattan x y := by
  have e : ∀ z : Pos, (∀ a ∈ z, InRange a) → valueRaw seed z = blend interpHermite (fun ks _ => latticeValue seed ks) z := by
    intro z hz
    refine interp_congr _ _ _ fun bs _ => ?_
    rw [corner_eq _ _ hz]; rfl
  rw [e x hx, e y hy]
  have hv : (0 : ℝ) ≤ valueBounds := by norm_num [valueBounds]
  refine (blend_lipschitz hermite_weight (G := 0) le_rfl hv x y _ hl (by intro ks xs ys _ _ _; simp) ?_).trans (le_of_eq (by ring))
  intro ks xs _ _
  exact abs_le.mpr (toInt_range _)

/-- **C75**: between two positions Value noise changes by at most 3 half output ranges per feature size, counting the distance along the axes. -/
theorem C75_value_rate (ops : List (SetOp ℝ)) (scale : ℝ) (off seed : I32) (p q : Pos) (hl : p.length = q.length) (hp : PosFits scale p) (hq : PosFits scale q) :
    |value (rangeAfter ops) scale off seed p - value (rangeAfter ops) scale off seed q| ≤ 3 * (|lastMax ops - lastMin ops| / 2) * (manhattan p q / |scale|) := by
  unfold value
  refine Simplex.scaled_rate ops (by norm_num [valueBounds]) ?_
  refine (valueRaw_lipschitz _ _ _ (by simp [scalePositions, hl]) (posFits_inRange hp) (posFits_inRange hq)).trans (le_of_eq ?_)
  rw [manhattan_scale, frequency, abs_div, abs_one]
  ring

/-! ## Perlin -/

theorem perlin2_linear (ft : Feat) (h : I32) (a b a' b' : ℝ) : |dotPerlin2 ft h a b - dotPerlin2 ft h a' b'| ≤ 2.4143 * (|a - a'| + |b - b'|) := by
  rw [dotPerlin2_eq, dotPerlin2_eq, show dot2 (perlin2 (low 3 h)) a b - dot2 (perlin2 (low 3 h)) a' b' = dot2 (perlin2 (low 3 h)) (a - a') (b - b') by unfold dot2; ring]
  refine (abs_perlin2 _ _ _).trans ?_
  have hs := sqrt2_half
  have m : max |a - a'| |b - b'| ≤ |a - a'| + |b - b'| := max_le (by linarith [abs_nonneg (b - b')]) (by linarith [abs_nonneg (a - a')])
  have m0 : 0 ≤ max |a - a'| |b - b'| := (abs_nonneg _).trans (le_max_left _ _)
  nlinarith

theorem perlin2_bound (ft : Feat) (h : I32) (a b : ℝ) (ha : |a| ≤ 1) (hb : |b| ≤ 1) : |dotPerlin2 ft h a b| ≤ 3.4143 := by
  rw [dotPerlin2_eq]
  refine (abs_perlin2 _ _ _).trans ?_
  have hs := sqrt2_half
  have m : max |a| |b| ≤ 1 := max_le ha hb
  have m0 : 0 ≤ max |a| |b| := (abs_nonneg _).trans (le_max_left _ _)
  nlinarith

theorem common_linear (ft : Feat) (h : I32) (a b c a' b' c' : ℝ) : |dotCommon ft h a b c - dotCommon ft h a' b' c'| ≤ |a - a'| + |b - b'| + |c - c'| := by
  rw [dotCommon_eq, dotCommon_eq, show dot3 (common3 (low 4 h)) a b c - dot3 (common3 (low 4 h)) a' b' c' = dot3 (common3 (low 4 h)) (a - a') (b - b') (c - c') by unfold dot3; ring]
  refine (abs_common3 _ _ _ _ 0 (abs_nonneg _) (abs_nonneg _) (abs_nonneg _)).trans (by linarith)

theorem common_bound (ft : Feat) (h : I32) (a b c : ℝ) (ha : |a| ≤ 1) (hb : |b| ≤ 1) (hc : |c| ≤ 1) : |dotCommon ft h a b c| ≤ 2 := by
  rw [dotCommon_eq]
  have l1 := min_le_left |a| (min |b| |c|)
  have l2 := (min_le_right |a| (min |b| |c|)).trans (min_le_left _ _)
  have l3 := (min_le_right |a| (min |b| |c|)).trans (min_le_right _ _)
  refine (abs_common3 _ _ _ _ _ l1 l2 l3).trans ?_
  rcases min_choice |a| (min |b| |c|) with e | e
  · linarith
  · rcases min_choice |b| |c| with e' | e' <;> linarith

theorem perlin4_linear (ft : Feat) (h : I32) (a b c d a' b' c' d' : ℝ) :
    |dotPerlin4 ft h a b c d - dotPerlin4 ft h a' b' c' d'| ≤ |a - a'| + |b - b'| + |c - c'| + |d - d'| := by
  rw [dotPerlin4_eq, dotPerlin4_eq, show dot4 (perlin4 (low 5 h)) a b c d - dot4 (perlin4 (low 5 h)) a' b' c' d' = dot4 (perlin4 (low 5 h)) (a - a') (b - b') (c - c') (d - d') by
    unfold dot4; ring]
  refine (abs_perlin4 _ _ _ _ _ 0 (abs_nonneg _) (abs_nonneg _) (abs_nonneg _) (abs_nonneg _)).trans (by linarith)

theorem perlin4_bound (ft : Feat) (h : I32) (a b c d : ℝ) (ha : |a| ≤ 1) (hb : |b| ≤ 1) (hc : |c| ≤ 1) (hd : |d| ≤ 1) : |dotPerlin4 ft h a b c d| ≤ 3 := by
  rw [dotPerlin4_eq]
  have l1 := (min_le_left (min |a| |b|) (min |c| |d|)).trans (min_le_left _ _)
  have l2 := (min_le_left (min |a| |b|) (min |c| |d|)).trans (min_le_right _ _)
  have l3 := (min_le_right (min |a| |b|) (min |c| |d|)).trans (min_le_left _ _)
  have l4 := (min_le_right (min |a| |b|) (min |c| |d|)).trans (min_le_right _ _)
  refine (abs_perlin4 _ _ _ _ _ _ l1 l2 l3 l4).trans ?_
  rcases min_choice (min |a| |b|) (min |c| |d|) with e | e
  · rcases min_choice |a| |b| with e' | e' <;> linarith
  · rcases min_choice |c| |d| with e' | e' <;> linarith

/-- The contribution of one lattice point. -/
def cornerPerlin (ft : Feat) (seed : I32) (ks : List ℤ) (xs : List ℝ) : ℝ :=
  gradDot ft (hashPrimes seed (primed (ks.map (BitVec.ofInt 32)))) (List.zipWith (fun (a : ℝ) (k : ℤ) => a - k) xs ks)

theorem perlinRaw_blend (ft : Feat) (seed : I32) (z : Pos) (hz : ∀ a ∈ z, InRange a) : perlinRaw ft seed z = blend interpQuintic (cornerPerlin ft seed) z := by
  refine interp_congr _ _ _ fun bs hb => ?_
  rw [corner_eq _ _ hz, offset_eq, List.take_of_length_le (by rw [hb]; simp)]
  rfl

theorem perlinRaw_lipschitz (ft : Feat) (seed : I32) (x y : Pos) (h2 : 2 ≤ x.length) (h4 : x.length ≤ 4) (hl : x.length = y.length) (hx : ∀ a ∈ x, InRange a) (hy : ∀ a ∈ y, InRange a) :
    |perlinRaw ft seed x - perlinRaw ft seed y| ≤ 10 * perlinBound x.length * manhattan x y := by
  rw [perlinRaw_blend ft seed x hx, perlinRaw_blend ft seed y hy]
  have hm := manhattan_nonneg x y
  have hcase : x.length = 2 ∨ x.length = 3 ∨ x.length = 4 := by omega
  rcases hcase with h | h | h
  · refine (blend_lipschitz quintic_weight (G := 2.4143) (B := 3.4143) (by norm_num) (by norm_num) x y _ hl ?_ ?_).trans (mul_le_mul_of_nonneg_right (by rw [h]; norm_num [perlinBound]) hm)
    · intro ks xs ys hk n1 n2
      obtain ⟨k0, k1, rfl⟩ := List.length_eq_two.mp (hk.trans h)
      obtain ⟨a, b, rfl⟩ := List.length_eq_two.mp n1.length_eq.symm
      obtain ⟨a', b', rfl⟩ := List.length_eq_two.mp n2.length_eq.symm
      simp only [cornerPerlin, List.zipWith_cons_cons, List.zipWith_nil_left, gradDot, manhattan, List.sum_cons, List.sum_nil, add_zero]
      refine (perlin2_linear ft _ _ _ _ _).trans (le_of_eq ?_)
      rw [show a - (k0 : ℝ) - (a' - k0) = a - a' by ring, show b - (k1 : ℝ) - (b' - k1) = b - b' by ring]
    · intro ks xs hk n1
      obtain ⟨k0, k1, rfl⟩ := List.length_eq_two.mp (hk.trans h)
      obtain ⟨a, b, rfl⟩ := List.length_eq_two.mp n1.length_eq.symm
      simp only [Near, List.forall₂_cons, List.Forall₂.nil, and_true] at n1
      simp only [cornerPerlin, List.zipWith_cons_cons, List.zipWith_nil_left, gradDot]
      exact perlin2_bound ft _ _ _ n1.1 n1.2
  · refine (blend_lipschitz quintic_weight (G := 1) (B := 2) (by norm_num) (by norm_num) x y _ hl ?_ ?_).trans (mul_le_mul_of_nonneg_right (by rw [h]; norm_num [perlinBound]) hm)
    · intro ks xs ys hk n1 n2
      obtain ⟨k0, k1, k2, rfl⟩ := List.length_eq_three.mp (hk.trans h)
      obtain ⟨a, b, c, rfl⟩ := List.length_eq_three.mp n1.length_eq.symm
      obtain ⟨a', b', c', rfl⟩ := List.length_eq_three.mp n2.length_eq.symm
      simp only [cornerPerlin, List.zipWith_cons_cons, List.zipWith_nil_left, gradDot, manhattan, List.sum_cons, List.sum_nil, add_zero]
      refine (common_linear ft _ _ _ _ _ _ _).trans (le_of_eq ?_)
      rw [show a - (k0 : ℝ) - (a' - k0) = a - a' by ring, show b - (k1 : ℝ) - (b' - k1) = b - b' by ring, show c - (k2 : ℝ) - (c' - k2) = c - c' by ring]
      ring
    · intro ks xs hk n1
      obtain ⟨k0, k1, k2, rfl⟩ := List.length_eq_three.mp (hk.trans h)
      obtain ⟨a, b, c, rfl⟩ := List.length_eq_three.mp n1.length_eq.symm
      simp only [Near, List.forall₂_cons, List.Forall₂.nil, and_true] at n1
      simp only [cornerPerlin, List.zipWith_cons_cons, List.zipWith_nil_left, gradDot]
      exact common_bound ft _ _ _ _ n1.1 n1.2.1 n1.2.2
  · refine (blend_lipschitz quintic_weight (G := 1) (B := 3) (by norm_num) (by norm_num) x y _ hl ?_ ?_).trans (mul_le_mul_of_nonneg_right (by rw [h]; norm_num [perlinBound]) hm)
    · intro ks xs ys hk n1 n2
      obtain ⟨k0, k1, k2, k3, rfl⟩ := List.length_eq_four.mp (hk.trans h)
      obtain ⟨a, b, c, d, rfl⟩ := List.length_eq_four.mp n1.length_eq.symm
      obtain ⟨a', b', c', d', rfl⟩ := List.length_eq_four.mp n2.length_eq.symm
      simp only [cornerPerlin, List.zipWith_cons_cons, List.zipWith_nil_left, gradDot, manhattan, List.sum_cons, List.sum_nil, add_zero]
      refine (perlin4_linear ft _ _ _ _ _ _ _ _ _).trans (le_of_eq ?_)
      rw [show a - (k0 : ℝ) - (a' - k0) = a - a' by ring, show b - (k1 : ℝ) - (b' - k1) = b - b' by ring, show c - (k2 : ℝ) - (c' - k2) = c - c' by ring,
        show d - (k3 : ℝ) - (d' - k3) = d - d' by ring]
      ring
    · intro ks xs hk n1
      obtain ⟨k0, k1, k2, k3, rfl⟩ := List.length_eq_four.mp (hk.trans h)
      obtain ⟨a, b, c, d, rfl⟩ := List.length_eq_four.mp n1.length_eq.symm
      simp only [Near, List.forall₂_cons, List.Forall₂.nil, and_true] at n1
      simp only [cornerPerlin, List.zipWith_cons_cons, List.zipWith_nil_left, gradDot]
      exact perlin4_bound ft _ _ _ _ _ n1.1 n1.2.1 n1.2.2.1 n1.2.2.2

/-- **C75**: between two positions Perlin noise, in 2, 3 or 4 dimensions, changes by at most 10 half output ranges per feature size, counting the distance along the axes. -/
theorem C75_perlin_rate (ft : Feat) (ops : List (SetOp ℝ)) (scale : ℝ) (off seed : I32) (p q : Pos) (h2 : 2 ≤ p.length) (h4 : p.length ≤ 4) (hl : p.length = q.length)
    (hp : PosFits scale p) (hq : PosFits scale q) :
    |perlin ft (rangeAfter ops) scale off seed p - perlin ft (rangeAfter ops) scale off seed q| ≤ 10 * (|lastMax ops - lastMin ops| / 2) * (manhattan p q / |scale|) := by
  unfold perlin
  rw [← hl]
  refine Simplex.scaled_rate ops (by unfold perlinBound; split_ifs <;> norm_num) ?_
  have := perlinRaw_lipschitz ft (seed + off) (scalePositions (frequency scale) p) (scalePositions (frequency scale) q) (by simpa [scalePositions] using h2) (by simpa [scalePositions] using h4)
    (by simp [scalePositions, hl]) (posFits_inRange hp) (posFits_inRange hq)
  rw [manhattan_scale, frequency, abs_div, abs_one, show (scalePositions (1 / scale) p).length = p.length by simp [scalePositions]] at this
  refine this.trans (le_of_eq ?_)
  ring

/-- Non-vacuity: default range, scale 100: positions one unit apart along an axis differ by at most 0.03 (Value) and 0.1 (Perlin). -/
example (ft : Feat) (off seed : I32) :
    |value (rangeAfter []) 100 off seed [3, 5, 99.5] - value (rangeAfter []) 100 off seed [3, 5, 100.5]| ≤ 0.03 ∧
    |perlin ft (rangeAfter []) 100 off seed [3, 5, 99.5] - perlin ft (rangeAfter []) 100 off seed [3, 5, 100.5]| ≤ 0.1 := by
  have f : ∀ z : ℝ, |z| ≤ 200 → PosFits 100 [3, 5, z] := by
    intro z hz a ha
    have := abs_le.mp hz
    simp only [List.mem_cons, List.not_mem_nil, or_false] at ha
    rcases ha with rfl | rfl | rfl <;> constructor <;> linarith
  have m : manhattan [(3 : ℝ), 5, 99.5] [3, 5, 100.5] = 1 := by norm_num [manhattan, abs_of_neg]
  have a1 : |(100 : ℝ)| = 100 := by norm_num [abs_of_pos]
  have rg : |lastMax ([] : List (SetOp ℝ)) - lastMin []| / 2 = 1 := by norm_num [lastMax, lastMin, abs_of_pos]
  have f1 := f 99.5 (by norm_num [abs_of_pos])
  have f2 := f 100.5 (by norm_num [abs_of_pos])
  constructor
  · have := C75_value_rate [] 100 off seed [3, 5, 99.5] [3, 5, 100.5] (by simp) f1 f2
    rw [m, a1, rg] at this
    exact this.trans (by norm_num)
  · have := C75_perlin_rate ft [] 100 off seed [3, 5, 99.5] [3, 5, 100.5] (by simp) (by simp) (by simp) f1 f2
    rw [m, a1, rg] at this
    exact this.trans (by norm_num)

/-! ## Distance of the binary32 outputs from the exact noise at the exact position -/

/-- A position the processor can scale without underflow: at most `2^m` feature sizes from the origin along each axis. -/
def Scalable (scale : ℝ) (m : ℕ) (pos : Pos) : Prop := scale ≠ 0 ∧ |scale| ≤ 2 ^ (100 : ℤ) ∧ ∀ p ∈ pos, |p / scale| ≤ 2 ^ m ∧ (p = 0 ∨ 2 ^ (-125 : ℤ) * |scale| ≤ |p|)

theorem Scalable.tail {scale : ℝ} {m : ℕ} {p : ℝ} {pos : Pos} (h : Scalable scale m (p :: pos)) : Scalable scale m pos := ⟨h.1, h.2.1, fun q hq => h.2.2 q (by simp [hq])⟩

theorem scaled_manhattan {scale : ℝ} {m : ℕ} : ∀ {pos : Pos}, Scalable scale m pos →
    manhattan (F32.scalePositions (F32.frequency scale) pos) (scalePositions (frequency scale) pos) ≤ pos.length * (4.1 / 2 ^ 25 * 2 ^ m) ∧
    ∀ a ∈ F32.scalePositions (F32.frequency scale) pos, |a| ≤ 2 * 2 ^ m
  | [], _ => by simp [manhattan, F32.scalePositions]
  | p :: pos, h => by
    obtain ⟨ih, ih2⟩ := scaled_manhattan h.tail
    obtain ⟨h1, h2⟩ := h.2.2 p (by simp)
    have e := (F32.C58_scaled_position p scale h.1 h.2.1 h2).2
    have hM : (0 : ℝ) < 2 ^ m := by positivity
    have e' : |F32.mul p (F32.frequency scale) - p / scale| ≤ 4.1 / 2 ^ 25 * 2 ^ m := by
      refine e.trans ?_
      have := mul_le_mul_of_nonneg_right h1 (by norm_num : (0 : ℝ) ≤ 2 / 2 ^ 24 + 1 / 2 ^ 48)
      refine this.trans ?_
      rw [mul_comm]
      exact mul_le_mul_of_nonneg_right (by norm_num) hM.le
    constructor
    · simp only [F32.scalePositions, scalePositions, List.map_cons, manhattan_cons, List.length_cons] at ih ⊢
      push_cast
      rw [frequency] at ih ⊢
      rw [mul_one_div]
      linarith
    · intro a ha
      simp only [F32.scalePositions, List.map_cons, List.mem_cons] at ha ih2
      rcases ha with rfl | ha
      · have t := abs_sub_abs_le_abs_sub (F32.mul p (F32.frequency scale)) (p / scale)
        have : 4.1 / 2 ^ 25 * (2 : ℝ) ^ m ≤ 1 * 2 ^ m := mul_le_mul_of_nonneg_right (by norm_num) hM.le
        linarith
      · exact ih2 a ha

theorem Scalable.fits {scale : ℝ} {m : ℕ} {pos : Pos} (h : Scalable scale m pos) (hm : m ≤ 27) :
    PosFits 1 (F32.scalePositions (F32.frequency scale) pos) ∧ PosFits 1 (scalePositions (frequency scale) pos) := by
  have hM2 : (2 : ℝ) ^ m ≤ 2 ^ 27 := pow_le_pow_right₀ (by norm_num) hm
  have hM : (0 : ℝ) < 2 ^ m := by positivity
  constructor
  · intro a ha
    have := abs_le.mp ((scaled_manhattan h).2 a ha)
    rw [div_one]
    norm_num at *
    constructor <;> linarith
  · intro a ha
    obtain ⟨p, hp, rfl⟩ := List.mem_map.mp ha
    have := abs_le.mp (h.2.2 p hp).1
    rw [div_one, frequency, mul_one_div]
    norm_num at *
    constructor <;> linarith

theorem scale_one (f : ℝ) (pos : Pos) : scalePositions (frequency 1) (scalePositions f pos) = scalePositions f pos := by simp [scalePositions, frequency]

theorem half_range {ops : List (SetOp ℝ)} {k : ℤ} (bl : |lastMin ops| ≤ 2 ^ k) (bh : |lastMax ops| ≤ 2 ^ k) : |lastMax ops - lastMin ops| / 2 ≤ 2 ^ k := by
  have := abs_sub (lastMax ops) (lastMin ops)
  linarith

/-- **C75**: in binary32, on every SIMD level, Value noise at a position at most `2^m` feature sizes from the origin is within `(7 + 20 n + 13 n 2^m) / 2^25`, in units of a power of two that bounds the output range,
of the exact noise at that position. -/
theorem C75_value_forward {e : ℤ} (ops : List (SetOp ℝ)) (h : F32.OnGrid e ops) {k : ℤ} (hk : -100 ≤ k) (bl : |lastMin ops| ≤ 2 ^ k) (bh : |lastMax ops| ≤ 2 ^ k)
    (L : F32.Level) (scale : ℝ) (off seed : I32) (pos : Pos) {m : ℕ} (hm : m ≤ 27) (hp : Scalable scale m pos) :
    |F32.value L (F32.rangeAfterF ops) scale off seed pos - value (rangeAfter ops) scale off seed pos| ≤ (7 + 20 * pos.length + 13 * pos.length * 2 ^ m) / 2 ^ 25 * 2 ^ k := by
  have a := F32.C58_value_near_exact ops h hk bl bh L scale off seed pos
  have r := C75_value_rate ops 1 off seed (F32.scalePositions (F32.frequency scale) pos) (scalePositions (frequency scale) pos) (by simp [F32.scalePositions, scalePositions]) (hp.fits hm).1 (hp.fits hm).2
  have e1 : value (rangeAfter ops) 1 off seed (scalePositions (frequency scale) pos) = value (rangeAfter ops) scale off seed pos := by
    unfold value; rw [scale_one]
  rw [e1, abs_one, div_one] at r
  have hpk : (0 : ℝ) < 2 ^ k := by positivity
  have hM : (0 : ℝ) < 2 ^ m := by positivity
  have hn : (0 : ℝ) ≤ pos.length := by positivity
  have r2 := r.trans (mul_le_mul (mul_le_mul_of_nonneg_left (half_range bl bh) (by norm_num)) (scaled_manhattan hp).1 (manhattan_nonneg _ _) (by positivity))
  have t := abs_sub_le (F32.value L (F32.rangeAfterF ops) scale off seed pos) (value (rangeAfter ops) 1 off seed (F32.scalePositions (F32.frequency scale) pos)) (value (rangeAfter ops) scale off seed pos)
  refine (t.trans (add_le_add a r2)).trans ?_
  have hX : 0 ≤ (pos.length : ℝ) * 2 ^ m * 2 ^ k := by positivity
  have e2 : (7 + 20 * (pos.length : ℝ) + 13 * pos.length * 2 ^ m) / 2 ^ 25 * 2 ^ k = (20 * pos.length + 7) / 2 ^ 25 * 2 ^ k + 13 / 2 ^ 25 * (pos.length * 2 ^ m * 2 ^ k) := by ring
  have e3 : 3 * (2 : ℝ) ^ k * (pos.length * (4.1 / 2 ^ 25 * 2 ^ m)) = 12.3 / 2 ^ 25 * (pos.length * 2 ^ m * 2 ^ k) := by ring
  rw [e2, e3]
  have := mul_le_mul_of_nonneg_right (by norm_num : (12.3 : ℝ) / 2 ^ 25 ≤ 13 / 2 ^ 25) hX
  linarith

/-- **C75**: in binary32, on every SIMD level, Perlin noise at a position at most `2^m` feature sizes from the origin is within `(400 + 41 * 2^m) n / 2^25`, in units of a power of two that bounds the output range,
of the exact noise at that position. -/
theorem C75_perlin_forward {e : ℤ} (ops : List (SetOp ℝ)) (h : F32.OnGrid e ops) {k : ℤ} (hk : -100 ≤ k) (bl : |lastMin ops| ≤ 2 ^ k) (bh : |lastMax ops| ≤ 2 ^ k)
    (ft : Feat) (L : F32.Level) (scale : ℝ) (off seed : I32) (pos : Pos) (h2 : 2 ≤ pos.length) (h4 : pos.length ≤ 4) {m : ℕ} (hm : m ≤ 27) (hp : Scalable scale m pos) :
    |F32.perlin ft L (F32.rangeAfterF ops) scale off seed pos - perlin ft (rangeAfter ops) scale off seed pos| ≤ (400 + 41 * 2 ^ m) * pos.length / 2 ^ 25 * 2 ^ k := by
  have a := F32.C61_perlin_near_exact ops h hk bl bh ft L scale off seed pos h2 h4
  have r := C75_perlin_rate ft ops 1 off seed (F32.scalePositions (F32.frequency scale) pos) (scalePositions (frequency scale) pos) (by simpa [F32.scalePositions] using h2) (by simpa [F32.scalePositions] using h4)
    (by simp [F32.scalePositions, scalePositions]) (hp.fits hm).1 (hp.fits hm).2
  have e1 : perlin ft (rangeAfter ops) 1 off seed (scalePositions (frequency scale) pos) = perlin ft (rangeAfter ops) scale off seed pos := by
    unfold perlin
    rw [scale_one, show (scalePositions (frequency scale) pos).length = pos.length by simp [scalePositions]]
  rw [e1, abs_one, div_one] at r
  have hpk : (0 : ℝ) < 2 ^ k := by positivity
  have hM : (0 : ℝ) < 2 ^ m := by positivity
  have hn : (0 : ℝ) ≤ pos.length := by positivity
  have r2 := r.trans (mul_le_mul (mul_le_mul_of_nonneg_left (half_range bl bh) (by norm_num)) (scaled_manhattan hp).1 (manhattan_nonneg _ _) (by positivity))
  have t := abs_sub_le (F32.perlin ft L (F32.rangeAfterF ops) scale off seed pos) (perlin ft (rangeAfter ops) 1 off seed (F32.scalePositions (F32.frequency scale) pos)) (perlin ft (rangeAfter ops) scale off seed pos)
  refine (t.trans (add_le_add a r2)).trans (le_of_eq ?_)
  ring

/-- Non-vacuity: the default range and scale 100 at a position ten feature sizes away: the binary32 outputs are within 0.00002 (Value) and 0.0001 (Perlin) of the exact ones. -/
example (ft : Feat) (L : F32.Level) (off seed : I32) :
    |F32.value L (F32.rangeAfterF []) 100 off seed [1000, -333.3] - value (rangeAfter []) 100 off seed [1000, -333.3]| ≤ 0.00002 ∧
    |F32.perlin ft L (F32.rangeAfterF []) 100 off seed [1000, -333.3] - perlin ft (rangeAfter []) 100 off seed [1000, -333.3]| ≤ 0.0001 := by
  have hs : Scalable 100 4 [1000, -333.3] := by
    refine ⟨by norm_num, by norm_num [abs_of_pos], ?_⟩
    intro p hp
    simp only [List.mem_cons, List.not_mem_nil, or_false] at hp
    rcases hp with rfl | rfl
    · exact ⟨by norm_num [abs_of_pos], Or.inr (by norm_num [abs_of_pos])⟩
    · exact ⟨by norm_num [abs_of_neg], Or.inr (by norm_num [abs_of_neg, abs_of_pos])⟩
  constructor
  · refine (C75_value_forward (e := 0) [] ⟨by norm_num, by norm_num, by simp⟩ (k := 0) (by norm_num) (by norm_num [lastMin]) (by norm_num [lastMax]) L 100 off seed _ (by norm_num) hs).trans ?_
    norm_num
  · refine (C75_perlin_forward (e := 0) [] ⟨by norm_num, by norm_num, by simp⟩ (k := 0) (by norm_num) (by norm_num [lastMin]) (by norm_num [lastMax]) ft L 100 off seed _ (by simp) (by simp)
      (by norm_num) hs).trans ?_
    norm_num

end
end FastNoise.Lattice
