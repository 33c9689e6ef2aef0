import Verif.Lattice
/-!
# Fractals and domain warps

Model of FractalFBm and FractalRidged (include/FastNoise/Generators/Fractal.inl:1-67), DomainWarp and DomainWarpGradient
(DomainWarp.inl:1-207) and DomainWarpFractalProgressive / DomainWarpFractalIndependent (DomainWarpFractal.inl:1-74).
Idealisation: see `Verif.Num`.
-/
namespace FastNoise.Fractal
open FastNoise.Hash FastNoise.Num FastNoise.Basic FastNoise.Lattice

noncomputable section

/-- The members of `Fractal<T>` apart from the source: Fractal.h:19-24. -/
structure Cfg where
  gain : Src
  weightedStrength : Src
  octaves : ℤ
  lacunarity : ℝ

/-- The loop body of FractalFBm, `n` iterations left: Fractal.inl:24-33. -/
def fbmLoop (source : Src) (gain ws lacunarity : ℝ) : Nat → I32 → Pos → ℝ → ℝ → ℝ → ℝ
  | 0, _, _, _, _, sum => sum
  | n + 1, seed, pos, amp, noise, sum =>
    let seed := seed - (-1)
    let amp := amp * lerp 1 ((noise + 1) * 0.5) ws
    let amp := amp * gain
    let pos := pos.map (· * lacunarity)
    let noise := source seed pos
    fbmLoop source gain ws lacunarity n seed pos amp noise (sum + noise * amp)

/-- `FractalFBm::GenT`: Fractal.inl:14-36.  The loop `for( int i = 1; i < mOctaves; i++ )` runs `mOctaves - 1` times, not at all if that is negative. -/
def fbm (c : Cfg) (source : Src) : Src := fun seed pos =>
  let gain := c.gain seed pos
  let ws := c.weightedStrength seed pos
  let noise := source seed pos
  fbmLoop source gain ws c.lacunarity (c.octaves - 1).toNat seed pos 1 noise (noise * 1)

/-- The loop body of FractalRidged: Fractal.inl:54-63. -/
def ridgedLoop (source : Src) (gain ws lacunarity : ℝ) : Nat → I32 → Pos → ℝ → ℝ → ℝ → ℝ
  | 0, _, _, _, _, sum => sum
  | n + 1, seed, pos, amp, noise, sum =>
    let seed := seed - (-1)
    let amp := amp * lerp 1 (1 - noise) ws
    let amp := amp * gain
    let pos := pos.map (· * lacunarity)
    let noise := |source seed pos|
    ridgedLoop source gain ws lacunarity n seed pos amp noise (sum + (noise * (-2) + 1) * amp)

/-- `FractalRidged::GenT`: Fractal.inl:44-66. -/
def ridged (c : Cfg) (source : Src) : Src := fun seed pos =>
  let gain := c.gain seed pos
  let ws := c.weightedStrength seed pos
  let noise := |source seed pos|
  ridgedLoop source gain ws c.lacunarity (c.octaves - 1).toNat seed pos 1 noise ((noise * (-2) + 1) * 1)

/-! ## Domain warps -/

/-- `DomainWarp::Warp( seed, warpAmp, x, y, .., xOut, yOut, .. )`: DomainWarp.inl:24-26.  The out parameters are updated in place; the result is
the new out position and the returned strength. -/
abbrev WarpFn := I32 → ℝ → Pos → Pos → Pos × ℝ

/-- `DomainWarp::GenT`: DomainWarp.inl:9-17. -/
def domainWarp (warp : WarpFn) (seedOffset : I32) (scale : ℝ) (amplitude source : Src) : Src := fun seed pos =>
  let sourceSeed := seed
  let seed := seed + seedOffset
  let w := warp seed (amplitude sourceSeed pos) (scalePositions (frequency scale) pos) pos
  source sourceSeed w.1

/-- The corners of a cell in the order of the `GRADIENT_COORD` calls, x fastest: DomainWarp.inl:58-65, 107-118, 170-189. -/
def corners : Nat → List (List Bool)
  | 0 => [[]]
  | n + 1 => (corners n).map (· ++ [false]) ++ (corners n).map (· ++ [true])

/-- `contrib`: product of `xs0` or `xs1` .., DomainWarp.inl:44-47, 59; `ts` = `xs1, ys1, ..`. -/
def contrib (ts : List ℝ) (bs : List Bool) : ℝ := (List.zipWith (fun t b => if b then t else 1 - t) ts bs).foldl (· * ·) 1

/-- The part of the hash that moves axis `k`: DomainWarp.inl:54-55, 101-103, 164-167. -/
def field (n k : Nat) (h : I32) : I32 :=
  if n ≤ 2 then (if k = 0 then h &&& 0xffff else h >>> 16)
  else if n = 3 then (if k = 0 then h &&& 0x3ff else if k = 1 then h.sshiftRight 11 &&& 0x3ff else h >>> 22)
  else (if k = 0 then h &&& 0xff else if k = 1 then h.sshiftRight 8 &&& 0xff else if k = 2 then h.sshiftRight 16 &&& 0xff else h >>> 24)

/-- The largest value of `field`, used in `normalise`: DomainWarp.inl:49, 96, 159. -/
def fieldMax (n : Nat) : ℝ := if n ≤ 2 then 0xffff else if n = 3 then 0x3ff else 0xff

/-- `xWarp`, `yWarp`, .. after normalisation: DomainWarp.inl:51-70, 98-125, 161-196; `FMulSub( a, b, c ) = a * b - c`. -/
def axisWarp (seed : I32) (x : Pos) (k : Nat) : ℝ :=
  let n := x.length
  let ts := x.map fun x => interpHermite (x - (⌊x⌋ : ℤ))
  let sum := (corners n).foldl (fun acc bs => fma (contrib ts bs) ((field n k (hashPrimesHB seed (corner x bs))).toInt) acc) 0
  sum * (1 / (fieldMax n / 2)) - 1

/-- `FMulAdd( xWarp, xWarp, FMulAdd( yWarp, yWarp, .. ) )`: DomainWarp.inl:74, 131, 204. -/
def sumSqR : List ℝ → ℝ
  | [] => 0
  | [a] => a * a
  | a :: r => fma a a (sumSqR r)

/-- `DomainWarpGradient::Warp`: DomainWarp.inl:33-75, 77-132, 134-206. -/
def gradientWarp (seedOffset : I32) (axisScale : Nat → ℝ) : WarpFn := fun seed warpAmp x out =>
  let seed := seed + seedOffset
  (out.mapIdx fun k o => fma (axisWarp seed x k) (warpAmp * axisScale k) o,
   sumSqR ((List.range x.length).map (axisWarp seed x)))

/-- The loop of DomainWarpFractalProgressive: DomainWarpFractal.inl:23-31. -/
def progressiveLoop (relaxed : Bool) (warp : WarpFn) (gain ws lacunarity : ℝ) : Nat → I32 → ℝ → ℝ → Pos × ℝ → Pos
  | 0, _, _, _, w => w.1
  | n + 1, seedInc, freq, amp, w =>
    let strength := fastLengthSqrt relaxed w.2
    let seedInc := seedInc - (-1)
    let freq := freq * lacunarity
    let amp := amp * lerp 1 (1 - strength) ws
    let amp := amp * gain
    progressiveLoop relaxed warp gain ws lacunarity n seedInc freq amp (warp seedInc amp (w.1.map (· * freq)) w.1)

/-- `DomainWarpFractalProgressive::GenT`: DomainWarpFractal.inl:9-35; `scale`, `amplitude`, `source` belong to the attached warp node. -/
def progressive (relaxed : Bool) (c : Cfg) (warp : WarpFn) (scale : ℝ) (amplitude source : Src) : Src := fun seed pos =>
  let amp := amplitude seed pos
  let ws := c.weightedStrength seed pos
  let freq := frequency scale
  let gain := c.gain seed pos
  let w := warp seed amp (pos.map (· * freq)) pos
  source seed (progressiveLoop relaxed warp gain ws c.lacunarity (c.octaves - 1).toNat seed freq amp w)

/-- The loop of DomainWarpFractalIndependent: DomainWarpFractal.inl:59-67. -/
def independentLoop (relaxed : Bool) (warp : WarpFn) (gain ws lacunarity : ℝ) (noisePos : Pos) : Nat → I32 → ℝ → ℝ → Pos × ℝ → Pos
  | 0, _, _, _, w => w.1
  | n + 1, seedInc, freq, amp, w =>
    let strength := fastLengthSqrt relaxed w.2
    let seedInc := seedInc - (-1)
    let freq := freq * lacunarity
    let amp := amp * lerp 1 (1 - strength) ws
    let amp := amp * gain
    independentLoop relaxed warp gain ws lacunarity noisePos n seedInc freq amp (warp seedInc amp (noisePos.map (· * freq)) w.1)

/-- `DomainWarpFractalIndependent::GenT`: DomainWarpFractal.inl:42-73. -/
def independent (relaxed : Bool) (c : Cfg) (warp : WarpFn) (scale : ℝ) (amplitude source : Src) : Src := fun seed pos =>
  let amp := amplitude seed pos
  let ws := c.weightedStrength seed pos
  let freq := frequency scale
  let gain := c.gain seed pos
  let w := warp seed amp (pos.map (· * freq)) pos
  source seed (independentLoop relaxed warp gain ws c.lacunarity pos (c.octaves - 1).toNat seed freq amp w)

end
end FastNoise.Fractal
