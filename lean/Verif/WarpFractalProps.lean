import Verif.WarpSimplexProps
import Verif.FractalProps
/-!
# C45: the simplex warps inside DomainWarpFractalProgressive and DomainWarpFractalIndependent
-/
namespace FastNoise.WarpSimplex
open FastNoise.Hash FastNoise.Num FastNoise.Basic FastNoise.Gradient FastNoise.Simplex FastNoise.WarpGrad FastNoise.Fractal

noncomputable section

variable {n : Nat}

/-- The displacement a warp reports at a position: where it moves the origin with amplitude 1. -/
def unitDisplacement (warp : WarpFn) (seed : I32) (x : Fin n → ℝ) : Fin n → ℝ := fun k => (warp seed 1 (List.ofFn x) (List.ofFn fun _ : Fin n => 0)).1.getD k 0

/-- A run of a warp fractal: positions `P i` and amplitudes `A i` before octave `i`; the noise of octave `i` is evaluated at `noiseAt i`. -/
structure WarpRun (warp : WarpFn) (c : Cfg) (scale : ℝ) (amplitude : Src) (seed : I32) (pos : Fin n → ℝ) (noiseAt P : Nat → Fin n → ℝ) (A : Nat → ℝ) : Prop where
  start : P 0 = pos
  amp0 : A 0 = amplitude seed (List.ofFn pos)
  /-- octave i moves the position by the displacement with seed + i at frequency × lacunarity^i, times its amplitude -/
  step : ∀ i k, P (i + 1) k = P i k + A i * unitDisplacement warp (octSeed seed i) (fun j => noiseAt i j * (c.lacunarity ^ i / scale)) k
  /-- amplitudes shrink by the gain, and by the weighted length of the previous displacement -/
  amp : ∀ i, A (i + 1) = A i * c.gain seed (List.ofFn pos) *
    (1 - c.weightedStrength seed (List.ofFn pos) * √(∑ k, unitDisplacement warp (octSeed seed i) (fun j => noiseAt i j * (c.lacunarity ^ i / scale)) k ^ 2))

/-- What the fractals rely on: the displacement is proportional to the amplitude and the strength is its squared length. -/
def Linear (warp : WarpFn) (n : Nat) : Prop :=
  ∀ seed amp (x o : Fin n → ℝ), warp seed amp (List.ofFn x) (List.ofFn o) = (List.ofFn fun k => o k + amp * unitDisplacement warp seed x k, ∑ k, unitDisplacement warp seed x k ^ 2)

theorem linear_of (warp : WarpFn) (h : ∀ seed (p : Fin n → ℝ), ∃ d : Fin n → ℝ, ∀ amp (o : Fin n → ℝ), warp seed amp (List.ofFn p) (List.ofFn o) = (List.ofFn fun k => o k + amp * d k, ∑ k, d k ^ 2)) :
    Linear warp n := by
  intro seed amp x o
  obtain ⟨d, hd⟩ := h seed x
  have e : unitDisplacement warp seed x = d := by
    funext k; rw [unitDisplacement, hd]; simp only [getD_ofFn, zero_add, one_mul]
  rw [hd, e]

/-- **C45**: both simplex warps, in every dimension and for every setting, behave this way. -/
theorem C45_linear_warps (hn : n = 2 ∨ n = 3 ∨ n = 4) (s : Scheme) (ft : Feat) (so : I32) (axisScale : Nat → ℝ) :
    Linear (simplexWarp s ft so axisScale) n ∧ Linear (superSimplexWarp s ft axisScale) n :=
  ⟨linear_of _ fun seed p => (C45_linear hn s ft so axisScale seed p).1, linear_of _ fun seed p => (C45_linear hn s ft so axisScale seed p).2⟩

theorem map_ofFn_mul (x : Fin n → ℝ) (f : ℝ) : (List.ofFn x).map (· * f) = List.ofFn fun j => x j * f := by
  rw [List.map_ofFn]; rfl

theorem freq_eq (scale l : ℝ) (i : Nat) : frequency scale * l ^ i = l ^ i / scale := by
  unfold frequency; ring

section
variable {warp : WarpFn} {c : Cfg} {scale : ℝ} {amplitude : Src} {seed : I32} {pos : Fin n → ℝ} {noiseAt P : Nat → Fin n → ℝ} {A : Nat → ℝ}

theorem WarpRun.step' (hw : Linear warp n) (r : WarpRun warp c scale amplitude seed pos noiseAt P A) (i : Nat) :
    warp (octSeed seed i) (A i) ((List.ofFn (noiseAt i)).map (· * (frequency scale * c.lacunarity ^ i))) (List.ofFn (P i)) =
      (List.ofFn (P (i + 1)), ∑ k, unitDisplacement warp (octSeed seed i) (fun j => noiseAt i j * (c.lacunarity ^ i / scale)) k ^ 2) := by
  rw [freq_eq, map_ofFn_mul, hw]
  congr 2
  funext k; rw [r.step]

theorem WarpRun.amp' (relaxed : Bool) (r : WarpRun warp c scale amplitude seed pos noiseAt P A) (i : Nat) :
    A i * lerp 1 (1 - fastLengthSqrt relaxed (∑ k, unitDisplacement warp (octSeed seed i) (fun j => noiseAt i j * (c.lacunarity ^ i / scale)) k ^ 2)) (c.weightedStrength seed (List.ofFn pos)) *
      c.gain seed (List.ofFn pos) = A (i + 1) := by
  rw [r.amp, fastLengthSqrt_eq _ _ (Finset.sum_nonneg fun k _ => sq_nonneg _)]
  simp only [lerp, Num.fma]; ring

theorem progressiveLoop_warp (relaxed : Bool) (hw : Linear warp n) (r : WarpRun warp c scale amplitude seed pos P P A) (m : Nat) : ∀ i,
    progressiveLoop relaxed warp (c.gain seed (List.ofFn pos)) (c.weightedStrength seed (List.ofFn pos)) c.lacunarity m (octSeed seed i) (frequency scale * c.lacunarity ^ i) (A i)
      (warp (octSeed seed i) (A i) ((List.ofFn (P i)).map (· * (frequency scale * c.lacunarity ^ i))) (List.ofFn (P i))) = List.ofFn (P (i + 1 + m)) := by
  induction m with
  | zero => intro i; rw [r.step' hw i]; rfl
  | succ m ih =>
    intro i
    rw [progressiveLoop]
    simp only [r.step' hw i, octSeed_succ, r.amp' relaxed i]
    rw [mul_assoc, ← pow_succ, ih (i + 1)]
    congr 2; omega

theorem independentLoop_warp (relaxed : Bool) (hw : Linear warp n) (r : WarpRun warp c scale amplitude seed pos (fun _ => pos) P A) (m : Nat) : ∀ i,
    independentLoop relaxed warp (c.gain seed (List.ofFn pos)) (c.weightedStrength seed (List.ofFn pos)) c.lacunarity (List.ofFn pos) m (octSeed seed i) (frequency scale * c.lacunarity ^ i) (A i)
      (warp (octSeed seed i) (A i) ((List.ofFn pos).map (· * (frequency scale * c.lacunarity ^ i))) (List.ofFn (P i))) = List.ofFn (P (i + 1 + m)) := by
  induction m with
  | zero => intro i; have := r.step' hw i; rw [this]; rfl
  | succ m ih =>
    intro i
    rw [independentLoop]
    have h1 := r.step' hw i
    have h2 := r.amp' relaxed i
    simp only [h1, octSeed_succ, h2]
    rw [mul_assoc, ← pow_succ, ih (i + 1)]
    congr 2; omega

end

/-- **C45**, progressive fractal of a simplex warp: every octave displaces the position the previous octave left, and evaluates its noise there; the source is evaluated, with the
caller's seed, at the last position. -/
theorem C45_progressive (relaxed : Bool) {warp : WarpFn} (hw : Linear warp n) (c : Cfg) (scale : ℝ) (amplitude source : Src) (seed : I32) (pos : Fin n → ℝ) (P : Nat → Fin n → ℝ) (A : Nat → ℝ)
    (r : WarpRun warp c scale amplitude seed pos P P A) :
    progressive relaxed c warp scale amplitude source seed (List.ofFn pos) = source seed (List.ofFn (P (octaveCount c))) := by
  have h := progressiveLoop_warp relaxed hw r (c.octaves - 1).toNat 0
  rw [octaveCount_eq] at h
  simp only [octSeed_zero, pow_zero, mul_one, r.start, r.amp0] at h
  rw [progressive, ← h]

/-- **C45**, independent fractal of a simplex warp: every octave evaluates its noise at the original position, and the displacements add up. -/
theorem C45_independent (relaxed : Bool) {warp : WarpFn} (hw : Linear warp n) (c : Cfg) (scale : ℝ) (amplitude source : Src) (seed : I32) (pos : Fin n → ℝ) (P : Nat → Fin n → ℝ) (A : Nat → ℝ)
    (r : WarpRun warp c scale amplitude seed pos (fun _ => pos) P A) :
    independent relaxed c warp scale amplitude source seed (List.ofFn pos) = source seed (List.ofFn (P (octaveCount c))) := by
  have h := independentLoop_warp relaxed hw r (c.octaves - 1).toNat 0
  rw [octaveCount_eq] at h
  simp only [octSeed_zero, pow_zero, mul_one, r.start, r.amp0] at h
  rw [independent, ← h]

/-- Runs of both kinds exist for every warp, setting and position. -/
theorem C45_runs_exist (warp : WarpFn) (c : Cfg) (scale : ℝ) (amplitude : Src) (seed : I32) (pos : Fin n → ℝ) :
    (∃ P A, WarpRun warp c scale amplitude seed pos P P A) ∧ (∃ P A, WarpRun warp c scale amplitude seed pos (fun _ => pos) P A) := by
  have gen : ∀ noise : (Fin n → ℝ) → Fin n → ℝ, ∃ P A, WarpRun warp c scale amplitude seed pos (fun i => noise (P i)) P A := by
    intro noise
    let S : Nat → (Fin n → ℝ) × ℝ := fun m => Nat.rec (pos, amplitude seed (List.ofFn pos)) (fun i s =>
      (fun k => s.1 k + s.2 * unitDisplacement warp (octSeed seed i) (fun j => noise s.1 j * (c.lacunarity ^ i / scale)) k,
       s.2 * c.gain seed (List.ofFn pos) * (1 - c.weightedStrength seed (List.ofFn pos) *
        √(∑ k, unitDisplacement warp (octSeed seed i) (fun j => noise s.1 j * (c.lacunarity ^ i / scale)) k ^ 2)))) m
    exact ⟨fun i => (S i).1, fun i => (S i).2, rfl, rfl, fun _ _ => rfl, fun _ => rfl⟩
  exact ⟨gen id, gen fun _ => pos⟩

/-- Where C45 fails: the seed offset of a warp node acts differently inside a fractal.  A one-octave fractal of a DomainWarpSimplex adds the offset once where the stand-alone
node (`C45_warp2`) adds it twice; a one-octave fractal of a DomainWarpSuperSimplex is the stand-alone node with seed offset 0, whatever the offset of the node is. -/
theorem C45_fractal_seed_partial (relaxed : Bool) (s : Scheme) (ft : Feat) (so : I32) (axisScale : Nat → ℝ) (c : Cfg) (hc : c.octaves ≤ 1) (scale : ℝ) (amplitude source : Src) (seed : I32) (pos : Pos) :
    progressive relaxed c (simplexWarp s ft so axisScale) scale amplitude source seed pos =
      domainWarp (simplexWarp s ft so axisScale) 0 scale amplitude source seed pos ∧
    progressive relaxed c (superSimplexWarp s ft axisScale) scale amplitude source seed pos =
      domainWarp (superSimplexWarp s ft axisScale) 0 scale amplitude source seed pos := by
  have h0 : (c.octaves - 1).toNat = 0 := by omega
  have hz : seed + 0 = seed := by simp
  simp only [progressive, domainWarp, h0, progressiveLoop, scalePositions, hz, and_self]

example : (⟨Src.const 0.5, Src.const 0.25, 3, 2⟩ : Cfg).octaves = 3 ∧ Linear (simplexWarp .orthogonalGradientMatrix ⟨true, true, true, true, true⟩ 5 fun _ => 1) 3 :=
  ⟨rfl, (C45_linear_warps (.inr (.inl rfl)) _ _ _ _).1⟩

end
end FastNoise.WarpSimplex
