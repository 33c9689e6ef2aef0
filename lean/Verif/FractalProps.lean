import Verif.FractalLemmas
import Verif.LatticeProps
import Verif.BitsLemmas
/-! # C28 (fractals) and C29 (domain warps) -/
namespace FastNoise.Fractal
open FastNoise.Hash FastNoise.Num FastNoise.Basic FastNoise.Lattice

/-! ## C28 -/

/-- Number of octaves that are summed: at least one. -/
def octaveCount (c : Cfg) : Nat := max 1 c.octaves.toNat

/-- The value of octave `i`. -/
noncomputable def octave (source : Src) (c : Cfg) (seed : I32) (pos : Pos) (i : Nat) : ℝ := source (octSeed seed i) (octPos pos c.lacunarity i)

/-- The amplitude of octave `i` of FBm: gain^i, each step reduced by the weighted strength where the previous octave was low. -/
noncomputable def fbmAmp (source : Src) (c : Cfg) (seed : I32) (pos : Pos) (i : Nat) : ℝ :=
  ∏ j ∈ Finset.range i, (c.gain seed pos * (1 - c.weightedStrength seed pos * (1 - octave source c seed pos j) / 2))

/-- The amplitude of octave `i` of the ridged fractal. -/
noncomputable def ridgedAmp (source : Src) (c : Cfg) (seed : I32) (pos : Pos) (i : Nat) : ℝ :=
  ∏ j ∈ Finset.range i, (c.gain seed pos * (1 - c.weightedStrength seed pos * |octave source c seed pos j|))

theorem octaveCount_eq (c : Cfg) : 0 + 1 + (c.octaves - 1).toNat = octaveCount c := by unfold octaveCount; omega

/-- **C28**, FBm: the sum over the octaves, with seed + i, position times lacunarity^i, amplitude `fbmAmp`. -/
theorem C28_fbm (c : Cfg) (source : Src) (seed : I32) (pos : Pos) :
    fbm c source seed pos = ∑ i ∈ Finset.range (octaveCount c), octave source c seed pos i * fbmAmp source c seed pos i := by
  have h := fbmLoop_eq source (c.gain seed pos) (c.weightedStrength seed pos) c.lacunarity seed pos (fbmAmp source c seed pos)
    (by
      intro i
      rw [fbmAmp, Finset.prod_range_succ, ← fbmAmp]
      simp only [octave, lerp, Num.fma]; ring) (c.octaves - 1).toNat 0
  rw [octaveCount_eq] at h
  simp only [octSeed_zero, octPos_zero, Finset.sum_range_one, fbmAmp, Finset.prod_range_zero, zero_add] at h
  unfold fbm
  simp only [octave, fbmAmp]
  exact h

/-- **C28**, ridged: every octave folded at 0 to 1 - 2|noise|. -/
theorem C28_ridged (c : Cfg) (source : Src) (seed : I32) (pos : Pos) :
    ridged c source seed pos = ∑ i ∈ Finset.range (octaveCount c), (1 - 2 * |octave source c seed pos i|) * ridgedAmp source c seed pos i := by
  have h := ridgedLoop_eq source (c.gain seed pos) (c.weightedStrength seed pos) c.lacunarity seed pos (ridgedAmp source c seed pos)
    (by
      intro i
      rw [ridgedAmp, Finset.prod_range_succ, ← ridgedAmp]
      simp only [octave, lerp, Num.fma]; ring) (c.octaves - 1).toNat 0
  rw [octaveCount_eq] at h
  simp only [octSeed_zero, octPos_zero, Finset.sum_range_one, ridgedAmp, Finset.prod_range_zero, zero_add] at h
  unfold ridged
  rw [h]
  refine Finset.sum_congr rfl fun i _ => ?_
  rw [ridgedAmp, octave]
  ring

/-- With weighted strength 0 the amplitudes are the powers of the gain. -/
theorem C28_unweighted (c : Cfg) (source : Src) (seed : I32) (pos : Pos) (h : c.weightedStrength seed pos = 0) :
    fbm c source seed pos = ∑ i ∈ Finset.range (octaveCount c), octave source c seed pos i * c.gain seed pos ^ i ∧
    ridged c source seed pos = ∑ i ∈ Finset.range (octaveCount c), (1 - 2 * |octave source c seed pos i|) * c.gain seed pos ^ i := by
  rw [C28_fbm, C28_ridged]
  simp [fbmAmp, ridgedAmp, h]

/-- One octave or less: FBm is its source. -/
theorem C28_one_octave (c : Cfg) (source : Src) (seed : I32) (pos : Pos) (h : c.octaves ≤ 1) :
    fbm c source seed pos = source seed pos ∧ ridged c source seed pos = 1 - 2 * |source seed pos| := by
  have : octaveCount c = 1 := by unfold octaveCount; omega
  rw [C28_fbm, C28_ridged, this]
  simp [fbmAmp, ridgedAmp, octave, octSeed_zero, octPos_zero]

/-- The value of octave `i` depends on the source at seed + i only: octave seeds are distinct for the first 2^32 octaves. -/
theorem C28_octave_seeds_distinct (seed : I32) (i j : Nat) (hi : i < 2 ^ 32) (hj : j < 2 ^ 32) (h : octSeed seed i = octSeed seed j) : i = j := by
  have h' : BitVec.ofNat 32 i = BitVec.ofNat 32 j := add_left_cancel h
  have := congrArg BitVec.toNat h'
  rw [BitVec.toNat_ofNat, BitVec.toNat_ofNat, Nat.mod_eq_of_lt hi, Nat.mod_eq_of_lt hj] at this
  exact this

theorem prod_abs_le (f : Nat → ℝ) (g : ℝ) (n : Nat) (h : ∀ j, |f j| ≤ g) : |∏ j ∈ Finset.range n, f j| ≤ g ^ n := by
  rw [Finset.abs_prod]
  refine (Finset.prod_le_prod (fun j _ => abs_nonneg _) (fun j _ => h j)).trans ?_
  simp

/-- **C28**, bounds: for a source within [-1, 1] and a weighted strength within [0, 1], both fractals stay within the sum of |gain|^i. -/
theorem C28_bounded (c : Cfg) (source : Src) (seed : I32) (pos : Pos) (hs : ∀ s p, |source s p| ≤ 1)
    (h0 : 0 ≤ c.weightedStrength seed pos) (h1 : c.weightedStrength seed pos ≤ 1) :
    |fbm c source seed pos| ≤ ∑ i ∈ Finset.range (octaveCount c), |c.gain seed pos| ^ i ∧
    |ridged c source seed pos| ≤ ∑ i ∈ Finset.range (octaveCount c), |c.gain seed pos| ^ i := by
  have hn : ∀ j, |octave source c seed pos j| ≤ 1 := fun j => hs _ _
  constructor
  · rw [C28_fbm]
    refine (Finset.abs_sum_le_sum_abs _ _).trans (Finset.sum_le_sum fun i _ => ?_)
    rw [abs_mul]
    have hA : |fbmAmp source c seed pos i| ≤ |c.gain seed pos| ^ i := by
      refine prod_abs_le _ _ _ fun j => ?_
      rw [abs_mul]
      have hb : |1 - c.weightedStrength seed pos * (1 - octave source c seed pos j) / 2| ≤ 1 := by
        have := abs_le.mp (hn j)
        rw [abs_le]
        constructor <;> nlinarith
      exact mul_le_of_le_one_right (abs_nonneg _) hb
    exact (mul_le_of_le_one_left (abs_nonneg _) (hn i)).trans hA
  · rw [C28_ridged]
    refine (Finset.abs_sum_le_sum_abs _ _).trans (Finset.sum_le_sum fun i _ => ?_)
    rw [abs_mul]
    have hA : |ridgedAmp source c seed pos i| ≤ |c.gain seed pos| ^ i := by
      refine prod_abs_le _ _ _ fun j => ?_
      rw [abs_mul]
      have hb : |1 - c.weightedStrength seed pos * (|octave source c seed pos j|)| ≤ 1 := by
        have := hn j
        have := abs_nonneg (octave source c seed pos j)
        rw [abs_le]
        constructor <;> nlinarith
      exact mul_le_of_le_one_right (abs_nonneg _) hb
    have hr : |1 - 2 * (|octave source c seed pos i|)| ≤ 1 := by
      have := hn i
      have := abs_nonneg (octave source c seed pos i)
      rw [abs_le]
      constructor <;> linarith
    exact (mul_le_of_le_one_left (abs_nonneg _) hr).trans hA

/-- The bound is attained, so a fractal of a source within [-1, 1] is not itself within [-1, 1]: three octaves of the constant 1 with gain 1/2 give 1.75. -/
theorem C28_not_normalised :
    fbm ⟨Src.const 0.5, Src.const 0, 3, 2⟩ (Src.const 1) 1337 [0, 0] = 1.75 := by
  rw [(C28_unweighted _ _ _ _ rfl).1]
  have h : octaveCount ⟨Src.const 0.5, Src.const 0, 3, 2⟩ = 3 := rfl
  rw [h]
  norm_num [octave, Src.const, Finset.sum_range_succ]

example : (∀ s p, |Src.const (-0.25) s p| ≤ 1) ∧ (0 : ℝ) ≤ Src.const 0.5 3 [1, 2] ∧ Src.const 0.5 3 [1, 2] ≤ 1 := by
  norm_num [Src.const, abs_le]

/-! ## C29 -/

/-- Specification: the displacement of a position by one warp evaluation, per axis. -/
noncomputable def displacement (axisScale : Nat → ℝ) (seed : I32) (amp : ℝ) (x : Pos) : List ℝ :=
  (List.range x.length).map fun k => amp * axisScale k * axisWarp seed x k

/-- Specification: moving a position. -/
noncomputable def move (pos : Pos) (d : List ℝ) : Pos := List.zipWith (· + ·) pos d

theorem gradientWarp_pos (off : I32) (axisScale : Nat → ℝ) (seed : I32) (amp : ℝ) (x out : Pos) (h : x.length = out.length) :
    (gradientWarp off axisScale seed amp x out).1 = move out (displacement axisScale (seed + off) amp x) := by
  unfold gradientWarp move displacement
  apply List.ext_getElem
  · simp [h]
  · intro i h1 h2
    simp [Num.fma]; ring

theorem move_length (pos : Pos) (d : List ℝ) (h : d.length = pos.length) : (move pos d).length = pos.length := by simp [move, h]
theorem displacement_length (axisScale : Nat → ℝ) (seed : I32) (amp : ℝ) (x : Pos) : (displacement axisScale seed amp x).length = x.length := by
  simp [displacement]

/-- **C29**: what a stand-alone gradient warp computes: its source, with the caller's seed, at the displaced position.  The displacement is taken
with the seed offset added *twice* (DomainWarp.inl:13 and 35): this is where the property fails, hence partial. -/
theorem C29_standalone_partial (off : I32) (axisScale : Nat → ℝ) (scale : ℝ) (amplitude source : Src) (seed : I32) (pos : Pos) :
    domainWarp (gradientWarp off axisScale) off scale amplitude source seed pos =
      source seed (move pos (displacement axisScale (seed + off + off) (amplitude seed pos) (scalePositions (frequency scale) pos))) := by
  unfold domainWarp
  simp only []
  rw [gradientWarp_pos _ _ _ _ _ _ (by simp [scalePositions])]

/-- **C29**, amplitude: along every axis the position moves by at most |amplitude × axis scale|.  (The documentation promises a Euclidean bound, which
fails, see `C29_exceeds_documented_distance`.) -/
theorem C29_axis_bound (axisScale : Nat → ℝ) (seed : I32) (amp : ℝ) (x pos : Pos) (h : x.length = pos.length) (k : Nat) (hk : k < pos.length) :
    ∃ hk' : k < (move pos (displacement axisScale seed amp x)).length,
      |(move pos (displacement axisScale seed amp x))[k] - pos[k]| ≤ |amp * axisScale k| := by
  refine ⟨by simp [move, displacement, h]; omega, ?_⟩
  simp only [move, displacement, List.getElem_zipWith, List.getElem_map, List.getElem_range, add_sub_cancel_left]
  rw [abs_mul]
  exact mul_le_of_le_one_right (abs_nonneg _) (axisWarp_range _ _ _)

/-- **C29**, Euclidean distance: at most |amplitude| √n with unit axis scales, √n more than documented. -/
theorem C29_euclidean_partial (seed : I32) (amp : ℝ) (x : Pos) :
    √(sumSqR (displacement (fun _ => 1) seed amp x)) ≤ |amp| * √x.length := by
  have e : sumSqR (displacement (fun _ => 1) seed amp x) = amp ^ 2 * sumSqR ((List.range x.length).map (axisWarp seed x)) := by
    rw [sumSqR_eq, sumSqR_eq, displacement, List.map_map, List.map_map, ← List.sum_map_mul_left]
    congr 1
    refine List.map_congr_left fun k _ => ?_
    simp only [Function.comp]; ring
  rw [e, Real.sqrt_mul (sq_nonneg _), Real.sqrt_sq_eq_abs]
  refine mul_le_mul_of_nonneg_left ?_ (abs_nonneg _)
  have := (sumSqR_range ((List.range x.length).map (axisWarp seed x)) (by
    intro v hv; obtain ⟨k, _, rfl⟩ := List.mem_map.mp hv; exact axisWarp_range _ _ _)).2
  exact Real.sqrt_le_sqrt (by simpa using this)

/-- **C29**: amplitude 0 leaves the source untouched. -/
theorem C29_zero_amplitude (off : I32) (axisScale : Nat → ℝ) (scale : ℝ) (amplitude source : Src) (seed : I32) (pos : Pos) (h : amplitude seed pos = 0) :
    domainWarp (gradientWarp off axisScale) off scale amplitude source seed pos = source seed pos := by
  rw [C29_standalone_partial, h]
  congr 1
  unfold move displacement
  apply List.ext_getElem
  · simp [scalePositions]
  · intro i h1 h2; simp

/-- The Euclidean length of the (unscaled) warp vector. -/
noncomputable def strength (seed : I32) (x : Pos) : ℝ := √(sumSqR ((List.range x.length).map (axisWarp seed x)))

/-- A run of a warp fractal: positions `P i` and amplitudes `A i` before octave `i`; `at_` is where the noise of an octave is evaluated. -/
structure Run (off : I32) (axisScale : Nat → ℝ) (c : Cfg) (scale : ℝ) (amplitude : Src) (seed : I32) (pos : Pos) (noiseAt : Nat → Pos) (P : Nat → Pos) (A : Nat → ℝ) : Prop where
  start : P 0 = pos
  amp0 : A 0 = amplitude seed pos
  /-- octave i moves the position by a warp with seed + i + seed offset at frequency × lacunarity^i -/
  step : ∀ i, P (i + 1) = move (P i) (displacement axisScale (octSeed seed i + off) (A i) (octPos (noiseAt i) (c.lacunarity) i |>.map (· * frequency scale)))
  /-- amplitudes shrink by the gain, and by the weighted strength of the previous warp -/
  amp : ∀ i, A (i + 1) = A i * c.gain seed pos *
    (1 - c.weightedStrength seed pos * strength (octSeed seed i + off) (octPos (noiseAt i) (c.lacunarity) i |>.map (· * frequency scale)))

theorem octPos_freq (x : Pos) (f l : ℝ) (i : Nat) : (octPos x l i).map (· * f) = x.map (· * (f * l ^ i)) := by
  simp only [octPos, List.map_map]
  refine List.map_congr_left fun p _ => ?_
  simp only [Function.comp]; ring

theorem Run.length {off axisScale c scale amplitude seed pos noiseAt P A} (r : Run off axisScale c scale amplitude seed pos noiseAt P A)
    (hn : ∀ i, (P i).length = pos.length → (noiseAt i).length = pos.length) : ∀ i, (P i).length = pos.length
  | 0 => by rw [r.start]
  | i + 1 => by
    have h := Run.length r hn i
    rw [r.step, move_length _ _ (by rw [displacement_length]; simp [octPos, hn i h, h]), h]

theorem gradientWarp_strength (relaxed : Bool) (off : I32) (axisScale : Nat → ℝ) (seed : I32) (amp : ℝ) (x out : Pos) :
    fastLengthSqrt relaxed (gradientWarp off axisScale seed amp x out).2 = strength (seed + off) x := by
  refine fastLengthSqrt_eq _ _ (sumSqR_range _ ?_).1
  intro v hv; obtain ⟨k, _, rfl⟩ := List.mem_map.mp hv; exact axisWarp_range _ _ _

theorem Run.amp' {off axisScale c scale amplitude seed pos noiseAt P A} (r : Run off axisScale c scale amplitude seed pos noiseAt P A) (i : Nat) :
    A i * lerp 1 (1 - strength (octSeed seed i + off) ((noiseAt i).map (· * (frequency scale * c.lacunarity ^ i)))) (c.weightedStrength seed pos) *
      c.gain seed pos = A (i + 1) := by
  rw [r.amp, octPos_freq]
  simp only [lerp, Num.fma]; ring

theorem Run.step' {off axisScale c scale amplitude seed pos noiseAt P A} (r : Run off axisScale c scale amplitude seed pos noiseAt P A)
    (hn : ∀ i, (P i).length = pos.length → (noiseAt i).length = pos.length) (i : Nat) :
    (gradientWarp off axisScale (octSeed seed i) (A i) ((noiseAt i).map (· * (frequency scale * c.lacunarity ^ i))) (P i)).1 = P (i + 1) := by
  have h := r.length hn i
  rw [gradientWarp_pos _ _ _ _ _ _ (by simp [hn i h, h]), r.step, octPos_freq]

theorem progressiveLoop_run (relaxed : Bool) {off axisScale c scale amplitude seed pos P A} (r : Run off axisScale c scale amplitude seed pos P P A) (n : Nat) : ∀ i,
    progressiveLoop relaxed (gradientWarp off axisScale) (c.gain seed pos) (c.weightedStrength seed pos) c.lacunarity n (octSeed seed i)
      (frequency scale * c.lacunarity ^ i) (A i)
      (gradientWarp off axisScale (octSeed seed i) (A i) ((P i).map (· * (frequency scale * c.lacunarity ^ i))) (P i)) = P (i + 1 + n) := by
  induction n with
  | zero => intro i; exact r.step' (fun _ h => h) i
  | succ n ih =>
    intro i
    rw [progressiveLoop]
    simp only [gradientWarp_strength, octSeed_succ]
    rw [r.step' (fun _ h => h) i, r.amp' i, mul_assoc, ← pow_succ, ih (i + 1)]
    congr 1; omega

theorem independentLoop_run (relaxed : Bool) {off axisScale c scale amplitude seed pos P A} (r : Run off axisScale c scale amplitude seed pos (fun _ => pos) P A) (n : Nat) : ∀ i,
    independentLoop relaxed (gradientWarp off axisScale) (c.gain seed pos) (c.weightedStrength seed pos) c.lacunarity pos n (octSeed seed i)
      (frequency scale * c.lacunarity ^ i) (A i)
      (gradientWarp off axisScale (octSeed seed i) (A i) (pos.map (· * (frequency scale * c.lacunarity ^ i))) (P i)) = P (i + 1 + n) := by
  induction n with
  | zero => intro i; exact r.step' (fun _ _ => rfl) i
  | succ n ih =>
    intro i
    rw [independentLoop]
    simp only [gradientWarp_strength, octSeed_succ]
    have h1 := r.step' (fun _ _ => rfl) i
    have h2 := r.amp' i
    rw [h1, h2, mul_assoc, ← pow_succ, ih (i + 1)]
    congr 1; omega

/-- **C29**, progressive fractal: for the (unique) sequence of positions in which every octave displaces the position the previous octave left, and
evaluates its warp there, the result is the source, with the caller's seed, at the last position. -/
theorem C29_progressive (relaxed : Bool) (off : I32) (axisScale : Nat → ℝ) (c : Cfg) (scale : ℝ) (amplitude source : Src) (seed : I32) (pos : Pos)
    (P : Nat → Pos) (A : Nat → ℝ) (r : Run off axisScale c scale amplitude seed pos P P A) :
    progressive relaxed c (gradientWarp off axisScale) scale amplitude source seed pos = source seed (P (octaveCount c)) := by
  have h := progressiveLoop_run relaxed r (c.octaves - 1).toNat 0
  rw [octaveCount_eq] at h
  simp only [octSeed_zero, pow_zero, mul_one, r.start, r.amp0] at h
  rw [progressive, ← h]

/-- **C29**, independent fractal: every octave evaluates its warp at the original position, and the displacements add up. -/
theorem C29_independent (relaxed : Bool) (off : I32) (axisScale : Nat → ℝ) (c : Cfg) (scale : ℝ) (amplitude source : Src) (seed : I32) (pos : Pos)
    (P : Nat → Pos) (A : Nat → ℝ) (r : Run off axisScale c scale amplitude seed pos (fun _ => pos) P A) :
    independent relaxed c (gradientWarp off axisScale) scale amplitude source seed pos = source seed (P (octaveCount c)) := by
  have h := independentLoop_run relaxed r (c.octaves - 1).toNat 0
  rw [octaveCount_eq] at h
  simp only [octSeed_zero, pow_zero, mul_one, r.start, r.amp0] at h
  rw [independent, ← h]

/-- The runs the two theorems are about exist, whatever the noise positions are computed from, and are unique by construction of `Run`. -/
theorem run_exists (off : I32) (axisScale : Nat → ℝ) (c : Cfg) (scale : ℝ) (amplitude : Src) (seed : I32) (pos : Pos) (noisePos : Pos → Pos) :
    ∃ P A, Run off axisScale c scale amplitude seed pos (fun i => noisePos (P i)) P A := by
  let S : Nat → Pos × ℝ := fun n => Nat.rec (pos, amplitude seed pos) (fun i s =>
    (move s.1 (displacement axisScale (octSeed seed i + off) s.2 (octPos (noisePos s.1) (c.lacunarity) i |>.map (· * frequency scale))),
     s.2 * c.gain seed pos * (1 - c.weightedStrength seed pos *
      strength (octSeed seed i + off) (octPos (noisePos s.1) (c.lacunarity) i |>.map (· * frequency scale))))) n
  exact ⟨fun i => (S i).1, fun i => (S i).2, rfl, rfl, fun _ => rfl, fun _ => rfl⟩

/-- Both kinds of run exist. -/
theorem C29_runs_exist (off : I32) (axisScale : Nat → ℝ) (c : Cfg) (scale : ℝ) (amplitude : Src) (seed : I32) (pos : Pos) :
    (∃ P A, Run off axisScale c scale amplitude seed pos P P A) ∧ (∃ P A, Run off axisScale c scale amplitude seed pos (fun _ => pos) P A) :=
  ⟨run_exists off axisScale c scale amplitude seed pos id, run_exists off axisScale c scale amplitude seed pos (fun _ => pos)⟩

/-- A run is determined by its noise positions. -/
theorem C29_run_unique {off axisScale c scale amplitude seed pos noiseAt noiseAt' P P' A A'}
    (r : Run off axisScale c scale amplitude seed pos noiseAt P A) (r' : Run off axisScale c scale amplitude seed pos noiseAt' P' A')
    (h : ∀ i, P i = P' i → noiseAt i = noiseAt' i) : ∀ i, P i = P' i ∧ A i = A' i
  | 0 => ⟨r.start.trans r'.start.symm, r.amp0.trans r'.amp0.symm⟩
  | i + 1 => by
    obtain ⟨hp, ha⟩ := C29_run_unique r r' h i
    exact ⟨by rw [r.step, r'.step, h i hp, hp, ha], by rw [r.amp, r'.amp, h i hp, ha]⟩

theorem strength_range (seed : I32) (x : Pos) (hx : x.length ≤ 4) : 0 ≤ strength seed x ∧ strength seed x ≤ 2 := by
  refine ⟨Real.sqrt_nonneg _, ?_⟩
  have := (sumSqR_range ((List.range x.length).map (axisWarp seed x)) (by
    intro v hv; obtain ⟨k, _, rfl⟩ := List.mem_map.mp hv; exact axisWarp_range _ _ _)).2
  rw [List.length_map, List.length_range] at this
  rw [strength, Real.sqrt_le_left (by norm_num)]
  have : (x.length : ℝ) ≤ 4 := by exact_mod_cast hx
  linarith

/-- With a weighted strength within [0, 1] no octave has more amplitude than |amplitude| |gain|^i. -/
theorem C29_amplitudes {off axisScale c scale amplitude seed pos noiseAt P A} (r : Run off axisScale c scale amplitude seed pos noiseAt P A)
    (hl : pos.length ≤ 4) (hn : ∀ i, (P i).length = pos.length → (noiseAt i).length = pos.length)
    (h0 : 0 ≤ c.weightedStrength seed pos) (h1 : c.weightedStrength seed pos ≤ 1) : ∀ i, |A i| ≤ |amplitude seed pos| * |c.gain seed pos| ^ i
  | 0 => by rw [r.amp0]; simp
  | i + 1 => by
    have ih := C29_amplitudes r hl hn h0 h1 i
    have hs := strength_range (octSeed seed i + off) (octPos (noiseAt i) (c.lacunarity) i |>.map (· * frequency scale))
      (by simpa [octPos, hn i (r.length hn i)] using hl)
    rw [r.amp, abs_mul, abs_mul, pow_succ, ← mul_assoc]
    generalize strength _ _ = s at hs
    have : |1 - c.weightedStrength seed pos * s| ≤ 1 := by
      rw [abs_le]; constructor <;> nlinarith
    refine (mul_le_of_le_one_right (by positivity) this).trans (mul_le_mul_of_nonneg_right ih (abs_nonneg _))

/-- **C29**, distance over all octaves: along axis `k` the source is evaluated at most Σ |amplitude| |gain|^i |axis scale| away. -/
theorem C29_total_axis_bound {off axisScale c scale amplitude seed pos noiseAt P A} (r : Run off axisScale c scale amplitude seed pos noiseAt P A)
    (hl : pos.length ≤ 4) (hn : ∀ i, (P i).length = pos.length → (noiseAt i).length = pos.length)
    (h0 : 0 ≤ c.weightedStrength seed pos) (h1 : c.weightedStrength seed pos ≤ 1) (k : Nat) (hk : k < pos.length) : ∀ m,
    ∃ hk' : k < (P m).length, |(P m)[k] - pos[k]| ≤ ∑ i ∈ Finset.range m, |amplitude seed pos| * |c.gain seed pos| ^ i * |axisScale k|
  | 0 => ⟨by rw [r.start]; exact hk, by simp [r.start]⟩
  | m + 1 => by
    obtain ⟨hk', ih⟩ := C29_total_axis_bound r hl hn h0 h1 k hk m
    have hlen := r.length hn
    refine ⟨by rw [hlen]; exact hk, ?_⟩
    obtain ⟨hk2, hb⟩ := C29_axis_bound axisScale (octSeed seed m + off) (A m) (octPos (noiseAt m) (c.lacunarity) m |>.map (· * frequency scale)) (P m)
      (by simp [octPos, hn m (hlen m), hlen m]) k hk'
    simp only [r.step m]
    rw [Finset.sum_range_succ]
    have hA := C29_amplitudes r hl hn h0 h1 m
    rw [abs_mul] at hb
    have := mul_le_mul_of_nonneg_right hA (abs_nonneg (axisScale k))
    have t := abs_sub_le ((move (P m) (displacement axisScale (octSeed seed m + off) (A m) (octPos (noiseAt m) (c.lacunarity) m |>.map (· * frequency scale))))[k]) (P m)[k] pos[k]
    linarith

/-- Weighted strength 0: the amplitudes are exactly amplitude × gain^i. -/
theorem C29_unweighted {off axisScale c scale amplitude seed pos noiseAt P A} (r : Run off axisScale c scale amplitude seed pos noiseAt P A)
    (h : c.weightedStrength seed pos = 0) : ∀ i, A i = amplitude seed pos * c.gain seed pos ^ i
  | 0 => by rw [r.amp0]; simp
  | i + 1 => by rw [r.amp, C29_unweighted r h i, h]; ring

/-- One octave (or less): both fractals displace once, with the seed offset added *once*. -/
theorem C29_one_octave (relaxed : Bool) (off : I32) (axisScale : Nat → ℝ) (c : Cfg) (scale : ℝ) (amplitude source : Src) (seed : I32) (pos : Pos) (h : c.octaves ≤ 1) :
    progressive relaxed c (gradientWarp off axisScale) scale amplitude source seed pos =
      source seed (move pos (displacement axisScale (seed + off) (amplitude seed pos) (scalePositions (frequency scale) pos))) ∧
    independent relaxed c (gradientWarp off axisScale) scale amplitude source seed pos =
      source seed (move pos (displacement axisScale (seed + off) (amplitude seed pos) (scalePositions (frequency scale) pos))) := by
  obtain ⟨⟨P, A, r⟩, ⟨P', A', r'⟩⟩ := C29_runs_exist off axisScale c scale amplitude seed pos
  have h1 : octaveCount c = 1 := by unfold octaveCount; omega
  rw [C29_progressive relaxed off axisScale c scale amplitude source seed pos P A r,
    C29_independent relaxed off axisScale c scale amplitude source seed pos P' A' r', h1]
  have e := r.step 0
  have e' := r'.step 0
  simp only [octSeed_zero, octPos_zero, r.start, r.amp0, r'.start, r'.amp0] at e e'
  rw [show (1 : Nat) = 0 + 1 from rfl, e, e']
  exact ⟨rfl, rfl⟩

/-- At the origin the warp vector is read directly off the hash of the seed. -/
theorem axisWarp_origin (seed : I32) (n k : Nat) (hn : n ≤ 4) :
    axisWarp seed (List.replicate n 0) k = ((field n k (seed * mulA)).toInt : ℝ) * (1 / (fieldMax n / 2)) - 1 := by
  rw [axisWarp_eq]
  have hz : ∀ t ∈ (List.replicate n (0 : ℝ)).map (fun x => interpHermite (x - (⌊x⌋ : ℤ))), t = 0 := by
    intro t ht
    obtain ⟨x, hx, rfl⟩ := List.mem_map.mp ht
    rw [List.eq_of_mem_replicate hx]
    simp [interpHermite]
  rw [interp_zero _ _ hz, List.length_map, List.length_replicate]
  have e : hashPrimesHB seed (corner (List.replicate n 0) (List.replicate n false)) = seed * mulA := by
    rw [corner_eq _ _ (by intro a ha; rw [List.eq_of_mem_replicate ha]; simp [Lattice.InRange])]
    rcases (by omega : n = 0 ∨ n = 1 ∨ n = 2 ∨ n = 3 ∨ n = 4) with rfl | rfl | rfl | rfl | rfl <;>
      simp [cornerZ, List.replicate, hashPrimesHB, key, primed, primes]
  rw [e]

/-- A seed whose hash has all bits set. -/
def maxSeed : I32 := 0x6772E1A3

theorem axisWarp_maxSeed (n k : Nat) (h2 : 2 ≤ n) (h4 : n ≤ 4) (hk : k < n) : axisWarp maxSeed (List.replicate n 0) k = 1 := by
  rw [axisWarp_origin _ _ _ h4, show maxSeed * mulA = 0xFFFFFFFF from by decide]
  rcases (by omega : n = 2 ∨ n = 3 ∨ n = 4) with rfl | rfl | rfl
  · rcases (by omega : k = 0 ∨ k = 1) with rfl | rfl
    · rw [show (field 2 0 0xFFFFFFFF).toInt = 0xffff from by decide]; norm_num [fieldMax]
    · rw [show (field 2 1 0xFFFFFFFF).toInt = 0xffff from by decide]; norm_num [fieldMax]
  · rcases (by omega : k = 0 ∨ k = 1 ∨ k = 2) with rfl | rfl | rfl
    · rw [show (field 3 0 0xFFFFFFFF).toInt = 0x3ff from by decide]; norm_num [fieldMax]
    · rw [show (field 3 1 0xFFFFFFFF).toInt = 0x3ff from by decide]; norm_num [fieldMax]
    · rw [show (field 3 2 0xFFFFFFFF).toInt = 0x3ff from by decide]; norm_num [fieldMax]
  · rcases (by omega : k = 0 ∨ k = 1 ∨ k = 2 ∨ k = 3) with rfl | rfl | rfl | rfl
    · rw [show (field 4 0 0xFFFFFFFF).toInt = 0xff from by decide]; norm_num [fieldMax]
    · rw [show (field 4 1 0xFFFFFFFF).toInt = 0xff from by decide]; norm_num [fieldMax]
    · rw [show (field 4 2 0xFFFFFFFF).toInt = 0xff from by decide]; norm_num [fieldMax]
    · rw [show (field 4 3 0xFFFFFFFF).toInt = 0xff from by decide]; norm_num [fieldMax]

/-- **C29** fails as documented: in 2, 3 and 4 dimensions there is a seed with which the origin is moved by |amplitude| √n, more than the
"maximum distance" the documentation of the amplitude promises; so `C29_euclidean_partial` is the best bound. -/
theorem C29_exceeds_documented_distance (n : Nat) (h2 : 2 ≤ n) (h4 : n ≤ 4) (amp : ℝ) :
    √(sumSqR (displacement (fun _ => 1) maxSeed amp (List.replicate n 0))) = |amp| * √n ∧ (amp ≠ 0 → |amp| < |amp| * √n) := by
  constructor
  · have e : displacement (fun _ => 1) maxSeed amp (List.replicate n 0) = List.replicate n amp := by
      unfold displacement
      apply List.ext_getElem
      · simp
      · intro i h1 h2'
        simp only [List.length_map, List.length_range, List.length_replicate] at h1
        simp [axisWarp_maxSeed n i h2 h4 h1]
    rw [e, sumSqR_eq]
    simp only [List.map_replicate, List.sum_replicate, nsmul_eq_mul]
    rw [Real.sqrt_mul (by positivity), Real.sqrt_sq_eq_abs, mul_comm]
  · intro h
    have h1 : (1 : ℝ) < √n := by
      rw [Real.lt_sqrt (by norm_num)]
      have : (2 : ℝ) ≤ n := by exact_mod_cast h2
      linarith
    have := abs_pos.mpr h
    nlinarith

/-- The doubled seed offset is observable: the same warp node, with seed offset `maxSeed`, displaces differently stand-alone and inside a warp
fractal with a single octave. -/
theorem C29_standalone_differs_from_fractal :
    let source : Src := fun _ p => p.getD 0 0
    let c : Cfg := ⟨Src.const 0.5, Src.const 0, 1, 2⟩
    domainWarp (gradientWarp maxSeed fun _ => 1) maxSeed 1 (Src.const 1) source 0 [0, 0] ≠
      progressive false c (gradientWarp maxSeed fun _ => 1) 1 (Src.const 1) source 0 [0, 0] := by
  intro source c
  rw [C29_standalone_partial, (C29_one_octave false _ _ c _ _ _ _ _ (le_refl _)).1]
  have e : scalePositions (frequency 1) [0, 0] = List.replicate 2 (0 : ℝ) := by simp [scalePositions, List.replicate]
  have l : (List.replicate 2 (0 : ℝ)).length = 2 := rfl
  rw [e]
  simp only [displacement, move, l, source, List.range_succ, List.range_zero, List.nil_append, List.map_cons, List.map_nil,
    List.cons_append, List.zipWith_cons_cons, List.getD_cons_zero, Src.const, mul_one, one_mul, zero_add]
  rw [axisWarp_maxSeed 2 0 (by omega) (by omega) (by omega), axisWarp_origin _ _ _ (by omega)]
  rw [show (field 2 0 ((maxSeed + maxSeed) * mulA)).toInt = 0xfffe from by decide]
  norm_num [fieldMax]

/-- Specification: distance between, and width of, the bit fields of the hash: 16 bits every 16 in 2D, 10 bits every 11 in 3D, 8 bits every 8 in 4D. -/
def fieldShape : Nat → Nat × Nat
  | 2 => (16, 16)
  | 3 => (11, 10)
  | _ => (8, 8)

/-- Specification: the number made of axis `k`'s bit field of the lattice point's hash, mapped linearly from `0 .. 2^width - 1` to [-1, 1]. -/
noncomputable def latticeWarp (seed : I32) (m : List ℤ) (k : Nat) : ℝ :=
  let hash := hashPrimesHB seed (primed (m.map (BitVec.ofInt 32)))
  let s := fieldShape m.length
  ((hash.toNat / 2 ^ (s.1 * k) % 2 ^ s.2 : ℕ) : ℝ) / (2 ^ s.2 - 1) * 2 - 1

theorem field_eq (n k : Nat) (hn : n = 2 ∨ n = 3 ∨ n = 4) (hk : k < n) (h : I32) :
    ((field n k h).toInt : ℝ) / fieldMax n =
      ((h.toNat / 2 ^ ((fieldShape n).1 * k) % 2 ^ (fieldShape n).2 : ℕ) : ℝ) / (2 ^ (fieldShape n).2 - 1) := by
  have a1 : (h &&& 0xffff).toInt = ((h.toNat % 2 ^ 16 : ℕ) : ℤ) := field_low h 16 (by omega)
  have a2 : (h &&& 0x3ff).toInt = ((h.toNat % 2 ^ 10 : ℕ) : ℤ) := field_low h 10 (by omega)
  have a3 : (h &&& 0xff).toInt = ((h.toNat % 2 ^ 8 : ℕ) : ℤ) := field_low h 8 (by omega)
  have b1 : (h.sshiftRight 11 &&& 0x3ff).toInt = ((h.toNat / 2 ^ 11 % 2 ^ 10 : ℕ) : ℤ) := field_sar h 11 10 (by omega) (by omega)
  have b2 : (h.sshiftRight 8 &&& 0xff).toInt = ((h.toNat / 2 ^ 8 % 2 ^ 8 : ℕ) : ℤ) := field_sar h 8 8 (by omega) (by omega)
  have b3 : (h.sshiftRight 16 &&& 0xff).toInt = ((h.toNat / 2 ^ 16 % 2 ^ 8 : ℕ) : ℤ) := field_sar h 16 8 (by omega) (by omega)
  have c1 : (h >>> 16).toInt = ((h.toNat / 2 ^ 16 % 2 ^ 16 : ℕ) : ℤ) := field_top h 16 16 (by omega) (by omega)
  have c2 : (h >>> 22).toInt = ((h.toNat / 2 ^ 22 % 2 ^ 10 : ℕ) : ℤ) := field_top h 22 10 (by omega) (by omega)
  have c3 : (h >>> 24).toInt = ((h.toNat / 2 ^ 24 % 2 ^ 8 : ℕ) : ℤ) := field_top h 24 8 (by omega) (by omega)
  rcases hn with rfl | rfl | rfl
  · rcases (by omega : k = 0 ∨ k = 1) with rfl | rfl <;> simp only [fieldShape, field, fieldMax, a1, c1, Int.cast_natCast, Nat.reduceLeDiff, le_refl, if_true, if_false, Nat.reduceEqDiff, one_ne_zero, Nat.mul_zero, Nat.mul_one, Nat.reduceMul, pow_zero, Nat.div_one] <;> norm_num
  · rcases (by omega : k = 0 ∨ k = 1 ∨ k = 2) with rfl | rfl | rfl <;> simp only [fieldShape, field, fieldMax, a2, b1, c2, Int.cast_natCast, Nat.reduceLeDiff, le_refl, if_true, if_false, Nat.reduceEqDiff, one_ne_zero, Nat.mul_zero, Nat.mul_one, Nat.reduceMul, pow_zero, Nat.div_one] <;> norm_num
  · rcases (by omega : k = 0 ∨ k = 1 ∨ k = 2 ∨ k = 3) with rfl | rfl | rfl | rfl <;> simp only [fieldShape, field, fieldMax, a3, b2, b3, c3, Int.cast_natCast, Nat.reduceLeDiff, le_refl, if_true, if_false, Nat.reduceEqDiff, one_ne_zero, Nat.mul_zero, Nat.mul_one, Nat.reduceMul, pow_zero, Nat.div_one] <;> norm_num

theorem C29_lattice (seed : I32) (scale : ℝ) (hs : scale ≠ 0) (m : List ℤ) (hm : Fits m) (hn : m.length = 2 ∨ m.length = 3 ∨ m.length = 4)
    (k : Nat) (hk : k < m.length) :
    axisWarp seed (scalePositions (frequency scale) (m.map fun k : ℤ => (k : ℝ) * scale)) k = latticeWarp seed m k := by
  rw [axisWarp_eq, scale_lattice hs, interp_zero, corner_eq _ _ (fits_inRange hm)]
  · have hf := field_eq m.length k hn hk (hashPrimesHB seed (primed (m.map (BitVec.ofInt 32))))
    have h0 := (fieldMax_pos m.length).ne'
    have e : latticeWarp seed m k = ((field m.length k (hashPrimesHB seed (primed (m.map (BitVec.ofInt 32))))).toInt : ℝ) / fieldMax m.length * 2 - 1 := by
      rw [hf]; rfl
    simp only [List.length_map, cornerZ_int, e]
    field_simp
  · intro t ht
    simp only [List.map_map] at ht
    obtain ⟨k, _, rfl⟩ := List.mem_map.mp ht
    simp [interpHermite]

/-- **C29**: the displacement is a (jointly) continuous function of the position: the warp never tears its source. -/
theorem C29_continuous (axisScale : Nat → ℝ) (scale amp : ℝ) (seed : I32) (n k : Nat) :
    ContinuousOn (fun p : Fin n → ℝ => (displacement axisScale seed amp (scalePositions (frequency scale) (List.ofFn p))).getD k 0)
      {p | PosFits scale (List.ofFn p)} := by
  by_cases hk : k < n
  · let as : List ((Fin n → ℝ) → ℝ) := List.ofFn fun i => fun p => p i * frequency scale
    have hpos : ∀ p : Fin n → ℝ, scalePositions (frequency scale) (List.ofFn p) = as.map (· p) := by
      intro p; simp only [as, scalePositions, List.map_ofFn]; rfl
    have hcont := interp_continuous interpHermite (by unfold interpHermite fnma; fun_prop) (by simp [interpHermite]) (by norm_num [interpHermite, fnma]) as
      (fun m _ => ((field n k (hashPrimesHB seed (primed (m.map (BitVec.ofInt 32))))).toInt : ℝ))
      (by intro a ha; obtain ⟨i, rfl⟩ := (List.mem_ofFn' _ _).mp ha; fun_prop) (fun m _ => continuous_const)
    have hfull : Continuous fun p : Fin n → ℝ => amp * axisScale k * (interp (fun bs => ((field n k (hashPrimesHB seed (primed ((cornerZ (as.map (· p)) bs).map (BitVec.ofInt 32))))).toInt : ℝ))
        ((as.map (· p)).map fun t => interpHermite (t - (⌊t⌋ : ℤ))) * (1 / (fieldMax n / 2)) - 1) := by
      fun_prop
    refine hfull.continuousOn.congr ?_
    intro p hp
    have hlen : (scalePositions (frequency scale) (List.ofFn p)).length = n := by simp [scalePositions]
    simp only [displacement, hlen]
    rw [List.getD_eq_getElem?_getD, List.getElem?_map, List.getElem?_range hk]
    simp only [Option.map_some, Option.getD_some]
    rw [axisWarp_eq, hlen]
    have e : interp (fun bs => ((field n k (hashPrimesHB seed (corner (scalePositions (frequency scale) (List.ofFn p)) bs))).toInt : ℝ))
          ((scalePositions (frequency scale) (List.ofFn p)).map fun t => interpHermite (t - (⌊t⌋ : ℤ))) =
        interp (fun bs => ((field n k (hashPrimesHB seed (primed ((cornerZ (as.map (· p)) bs).map (BitVec.ofInt 32))))).toInt : ℝ))
          ((as.map (· p)).map fun t => interpHermite (t - (⌊t⌋ : ℤ))) := by
      rw [← hpos]
      refine interp_congr _ _ _ fun bs _ => ?_
      rw [corner_eq _ _ (posFits_inRange hp)]
    rw [e]
  · have : ∀ p : Fin n → ℝ, (displacement axisScale seed amp (scalePositions (frequency scale) (List.ofFn p))).getD k 0 = 0 := by
      intro p
      rw [List.getD_eq_getElem?_getD, List.getElem?_eq_none]
      · rfl
      · rw [displacement_length]; simp [scalePositions]; omega
    simp only [this]
    exact continuousOn_const

/-- Non-vacuity: a two-octave run over a lattice warp, with weighted strength 1/2. -/
example : ∃ P A, Run 3 (fun _ => 1) ⟨Src.const 0.5, Src.const 0.5, 2, 2⟩ 100 (Src.const 30) 1337 [1, 2] P P A ∧
    progressive true ⟨Src.const 0.5, Src.const 0.5, 2, 2⟩ (gradientWarp 3 fun _ => 1) 100 (Src.const 30) (fun _ p => p.getD 0 0) 1337 [1, 2] = (P 2).getD 0 0 := by
  obtain ⟨⟨P, A, r⟩, _⟩ := C29_runs_exist 3 (fun _ => 1) ⟨Src.const 0.5, Src.const 0.5, 2, 2⟩ 100 (Src.const 30) 1337 [1, 2]
  exact ⟨P, A, r, C29_progressive true _ _ _ _ _ _ _ _ P A r⟩

end FastNoise.Fractal
