import Verif.Basic
import Verif.Gradient
/-!
# Lattice noises

Model of Value (include/FastNoise/Generators/Value.inl:1-97) and Perlin (Perlin.inl:1-127) in 2, 3 and 4 dimensions.
Idealisation: see `Verif.Num`; `Convert<float>` of a lattice value is exact.

Simplification: the code spells the interpolation out three times per generator; the model is one recursive function over the list of coordinates.
`value_2D` .. `perlin_4D` in `Verif.LatticeProps` show that it unfolds to the expressions of the code.
-/
namespace FastNoise.Lattice
open FastNoise.Hash FastNoise.Num FastNoise.Basic FastNoise.Gradient

noncomputable section

/-- `x0` (b = false) or `x1` (b = true) of one axis: Value.inl:15-18, Perlin.inl:15-18. -/
def axisCorner (x : ℝ) (prime : I32) (b : Bool) : I32 :=
  let x0 := convertI32 (⌊x⌋ : ℤ) * prime
  if b then x0 + prime else x0

/-- The primed coordinates of one corner of the cell of `x`. -/
def corner (x : Pos) (bs : List Bool) : List I32 :=
  List.zipWith (fun (xp : ℝ × I32) b => axisCorner xp.1 xp.2 b) (x.zip primes) bs

/-- The nested `Lerp`s, x innermost: Value.inl:23-25, 50-54, 84-93; Perlin.inl:28-30, 65-69, 110-119. -/
def interp (f : List Bool → ℝ) : List ℝ → ℝ
  | [] => f []
  | t :: ts => interp (fun bs => lerp (f (false :: bs)) (f (true :: bs)) t) ts

/-- The part of `Value::Gen` before `ScaleOutput`, at a scaled position. -/
def valueRaw (seed : I32) (x : Pos) : ℝ :=
  interp (fun bs => (valueCoord seed (corner x bs)).toInt) (x.map fun x => interpHermite (x - (⌊x⌋ : ℤ)))

/-- `Value::Gen`: Value.inl:7-27, 29-56, 58-95. -/
def value (r : Range ℝ) (scale : ℝ) (seedOffset : I32) : Src := fun seed pos =>
  r.scaleOutput (valueRaw (seed + seedOffset) (scalePositions (frequency scale) pos)) (-valueBounds) valueBounds

/-- The gradient function used per dimension: Perlin.inl:29 (`GetGradientDotPerlin` 2D), 66 (`GetGradientDotCommon`), 111 (`GetGradientDotPerlin` 4D). -/
def gradDot (ft : Feat) (hash : I32) : List ℝ → ℝ
  | [x, y] => dotPerlin2 ft hash x y
  | [x, y, z] => dotCommon ft hash x y z
  | [x, y, z, w] => dotPerlin4 ft hash x y z w
  | _ => 0 -- no other dimension exists

/-- `xf0` / `xf1`: Perlin.inl:20-23. -/
def offset (x : Pos) (bs : List Bool) : List ℝ :=
  List.zipWith (fun (x : ℝ) b => if b then x - (⌊x⌋ : ℤ) - 1 else x - (⌊x⌋ : ℤ)) x bs

/-- The part of `Perlin::Gen` before `ScaleOutput`, at a scaled position. -/
def perlinRaw (ft : Feat) (seed : I32) (x : Pos) : ℝ :=
  interp (fun bs => gradDot ft (hashPrimes seed (corner x bs)) (offset x bs)) (x.map fun x => interpQuintic (x - (⌊x⌋ : ℤ)))

/-- `kBounding`: Perlin.inl:32, 71, 121. -/
def perlinBound (n : Nat) : ℝ :=
  if n ≤ 2 then 1.726796627044677734375 else if n = 3 then 1.0363423824310302734375 else 1.33858621120452880859375

/-- `Perlin::Gen`: Perlin.inl:7-35, 37-74, 76-125. -/
def perlin (ft : Feat) (r : Range ℝ) (scale : ℝ) (seedOffset : I32) : Src := fun seed pos =>
  r.scaleOutput (perlinRaw ft (seed + seedOffset) (scalePositions (frequency scale) pos)) (-perlinBound pos.length) (perlinBound pos.length)

end
end FastNoise.Lattice
