import Verif.FloatNoise
import Verif.Fractal
/-!
# FractalFBm and FractalRidged in binary32 arithmetic

Fractal.inl:9-67, operation by operation, every operation rounded (`F32.lean`, whose simplifications apply).  `Fractal.Cfg` holds the members (gain and weighted strength may be generators).
-/
namespace FastNoise.F32
open FastNoise.Hash FastNoise.Num FastNoise.Basic
open FastNoise.Fractal (Cfg)

noncomputable section

/-- The loop body of FractalFBm, `n` iterations left: Fractal.inl:24-33. -/
def fbmLoop (L : Level) (source : Src) (gain ws lacunarity : ℝ) : Nat → I32 → Pos → ℝ → ℝ → ℝ → ℝ
  | 0, _, _, _, _, sum => sum
  | n + 1, seed, pos, amp, noise, sum =>
    let seed := seed - (-1)
    let amp := mul amp (lerp L 1 (mul (add noise 1) 0.5) ws)
    let amp := mul amp gain
    let pos := pos.map (mul · lacunarity)
    let noise := source seed pos
    fbmLoop L source gain ws lacunarity n seed pos amp noise (add sum (mul noise amp))

/-- `FractalFBm::GenT`: Fractal.inl:14-36. -/
def fbm (L : Level) (c : Cfg) (source : Src) : Src := fun seed pos =>
  let gain := c.gain seed pos
  let ws := c.weightedStrength seed pos
  let noise := source seed pos
  fbmLoop L source gain ws c.lacunarity (c.octaves - 1).toNat seed pos 1 noise (mul noise 1)

/-- The loop body of FractalRidged: Fractal.inl:54-63. -/
def ridgedLoop (L : Level) (source : Src) (gain ws lacunarity : ℝ) : Nat → I32 → Pos → ℝ → ℝ → ℝ → ℝ
  | 0, _, _, _, _, sum => sum
  | n + 1, seed, pos, amp, noise, sum =>
    let seed := seed - (-1)
    let amp := mul amp (lerp L 1 (sub 1 noise) ws)
    let amp := mul amp gain
    let pos := pos.map (mul · lacunarity)
    let noise := |source seed pos|
    ridgedLoop L source gain ws lacunarity n seed pos amp noise (add sum (mul (add (mul noise (-2)) 1) amp))

/-- `FractalRidged::GenT`: Fractal.inl:44-66. -/
def ridged (L : Level) (c : Cfg) (source : Src) : Src := fun seed pos =>
  let gain := c.gain seed pos
  let ws := c.weightedStrength seed pos
  let noise := |source seed pos|
  ridgedLoop L source gain ws c.lacunarity (c.octaves - 1).toNat seed pos 1 noise (mul (add (mul noise (-2)) 1) 1)

end
end FastNoise.F32
