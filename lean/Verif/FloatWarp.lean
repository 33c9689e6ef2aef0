import Verif.FloatNoise
import Verif.Fractal
/-!
# The gradient domain warp in binary32 arithmetic

`DomainWarpGradient::Warp` (DomainWarp.inl:29-207) and `DomainWarp::GenT` (9-17), operation by operation, every operation rounded (`F32.lean`, whose simplifications apply).
-/
namespace FastNoise.F32
open FastNoise.Hash FastNoise.Num FastNoise.Basic FastNoise.Lattice
open FastNoise.Fractal (corners field fieldMax)

noncomputable section

/-- `FS::FMulSub( a, b, c )` -/
def fms (L : Level) (a b c : ℝ) : ℝ := if L.fused then fl (a * b - c) else sub (mul a b) c

/-- `xs1` or `xs0`: DomainWarp.inl:44-47, 88-93, 148-155. -/
def side (t : ℝ) (b : Bool) : ℝ := if b then t else sub 1 t

/-- `contrib`: the product of the weights, left to right: DomainWarp.inl:53, 59, 100, 107, 163, 171. -/
def contribF (ts : List ℝ) (bs : List Bool) : ℝ :=
  match List.zipWith side ts bs with
  | [] => 1 -- there is no dimension 0
  | a :: r => r.foldl mul a

/-- `normalise`: DomainWarp.inl:49, 96, 159; `0xffff / 2.0f` and so on are exact. -/
def normalise (n : Nat) : ℝ := fl (1 / (fieldMax n / 2))

/-- The sum over the corners: the first is a product, the others are added with `FMulAdd`: DomainWarp.inl:51-65, 98-118, 161-189.  `Convert<float>` of at most 16 bits is exact. -/
def cornerSum (L : Level) (c f : List Bool → ℝ) : List (List Bool) → ℝ
  | [] => 0
  | b :: r => r.foldl (fun acc bs => fma L (c bs) (f bs) acc) (mul (c b) (f b))

/-- `xWarp`, `yWarp`, .. after normalisation: DomainWarp.inl:51-70, 98-125, 161-196. -/
def axisWarp (L : Level) (seed : I32) (x : Pos) (k : Nat) : ℝ :=
  let n := x.length
  let ts := x.map fun x => interpHermite L (sub x (⌊x⌋ : ℤ))
  fms L (cornerSum L (contribF ts) (fun bs => ((field n k (hashPrimesHB seed (corner x bs))).toInt : ℝ)) (corners n)) (normalise n) 1

/-- The out position: DomainWarp.inl:71-72, 126-128, 197-200. -/
def warpOut (L : Level) (seed : I32) (axisScale : Nat → ℝ) (warpAmp : ℝ) (x out : Pos) : Pos :=
  out.mapIdx fun k o => fma L (axisWarp L seed x k) (mul warpAmp (axisScale k)) o

/-- `DomainWarp::GenT` with `DomainWarpGradient::Warp`: DomainWarp.inl:9-17, 31, 35 (the seed offset is added in both). -/
def domainWarp (L : Level) (seedOffset : I32) (axisScale : Nat → ℝ) (scale : ℝ) (amplitude source : Src) : Src := fun seed pos =>
  let sourceSeed := seed
  let seed := seed + seedOffset
  source sourceSeed (warpOut L (seed + seedOffset) axisScale (amplitude sourceSeed pos) (scalePositions (frequency scale) pos) pos)

/-- `FMulAdd( xWarp, xWarp, FMulAdd( yWarp, yWarp, .. ) )`: DomainWarp.inl:74, 130, 202. -/
def sumSqR (L : Level) : List ℝ → ℝ
  | [] => 0
  | [a] => mul a a
  | a :: r => fma L a a (sumSqR L r)

/-- `DomainWarpGradient::Warp`: the out position and the returned strength: DomainWarp.inl:31-75, 77-131, 133-203. -/
def warp (L : Level) (seedOffset : I32) (axisScale : Nat → ℝ) (seed : I32) (warpAmp : ℝ) (x out : Pos) : Pos × ℝ :=
  (warpOut L (seed + seedOffset) axisScale warpAmp x out, sumSqR L ((List.range x.length).map (axisWarp L (seed + seedOffset) x)))

/-- The loop of both warp fractals: DomainWarpFractal.inl:23-31, 57-65.  `noisePos` is where the noise is taken: at the moving position (`none`), or always at the same one.
`FastLengthSqrt` (processor instructions of various precision) is any function `len`. -/
def warpLoop (L : Level) (len : ℝ → ℝ) (seedOffset : I32) (axisScale : Nat → ℝ) (gain ws lacunarity : ℝ) (noisePos : Option Pos) : Nat → I32 → ℝ → ℝ → Pos × ℝ → Pos
  | 0, _, _, _, w => w.1
  | n + 1, seedInc, freq, amp, w =>
    let strength := len w.2
    let seedInc := seedInc - (-1)
    let freq := mul freq lacunarity
    let amp := mul amp (lerp L 1 (sub 1 strength) ws)
    let amp := mul amp gain
    warpLoop L len seedOffset axisScale gain ws lacunarity noisePos n seedInc freq amp (warp L seedOffset axisScale seedInc amp (scalePositions freq (noisePos.getD w.1)) w.1)

/-- `DomainWarpFractalProgressive::GenT` (DomainWarpFractal.inl:9-35) and `DomainWarpFractalIndependent::GenT` (42-73): `independent` tells them apart. -/
def warpFractal (L : Level) (len : ℝ → ℝ) (c : Fractal.Cfg) (independent : Bool) (seedOffset : I32) (axisScale : Nat → ℝ) (scale : ℝ) (amplitude source : Src) : Src := fun seed pos =>
  let amp := amplitude seed pos
  let ws := c.weightedStrength seed pos
  let freq := frequency scale
  let gain := c.gain seed pos
  let w := warp L seedOffset axisScale seed amp (scalePositions freq pos) pos
  source seed (warpLoop L len seedOffset axisScale gain ws c.lacunarity (if independent then some pos else none) (c.octaves - 1).toNat seed freq amp w)

end
end FastNoise.F32
