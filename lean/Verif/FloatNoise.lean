import Verif.F32
import Verif.Lattice
/-!
# Value, White and Checkerboard in binary32 arithmetic

The generators of `Basic.lean` and `Lattice.lean` again, operation by operation, with every operation rounded (`F32.lean`).  Positions are binary32 numbers; positions whose scaled
coordinates leave the float range are not modelled.  Hashes are the same 32 bit words as before.
-/
namespace FastNoise.F32
open FastNoise.Hash FastNoise.Num FastNoise.Basic FastNoise.Lattice

noncomputable section

/-- `Lerp`: Utils.inl:252-255 -/
def lerp (L : Level) (a b t : ℝ) : ℝ := fma L t (sub b a) a

/-- `InterpHermite`: Utils.inl:257-260 -/
def interpHermite (L : Level) (t : ℝ) : ℝ := mul (mul t t) (fnma L t 2 3)

/-- `ScaleOutput`: BasicGenerators.inl:27-30 -/
def scaleOutput (L : Level) (r : Range ℝ) (value nativeMin nativeMax : ℝ) : ℝ :=
  fma L (mul (fl (1 / sub nativeMax nativeMin)) r.rangeScale) (sub value nativeMin) r.rangeMin

/-- `SetOutputMin`: BasicGenerators.h:95-100 -/
def setMin (r : Range ℝ) (v : ℝ) : Range ℝ := { rangeScale := add r.rangeScale (sub r.rangeMin v), rangeMin := v }
/-- `SetOutputMax`: BasicGenerators.h:104-108 -/
def setMax (r : Range ℝ) (v : ℝ) : Range ℝ := { r with rangeScale := sub v r.rangeMin }

/-- `SetScale`: BasicGenerators.h:20-24 -/
def frequency (scale : ℝ) : ℝ := fl (1 / scale)

/-- `ScalePositions`: BasicGenerators.inl:15-20 -/
def scalePositions (freq : ℝ) (pos : Pos) : Pos := pos.map fun p => mul p freq

/-- `GetValueCoord`: Utils.inl:242-250.  `Convert<float>` rounds to 24 bits. -/
def valueCoordF (seed : I32) (primedPos : List I32) : ℝ := fl ((valueCoord seed primedPos).toInt : ℝ)

/-- The nested `Lerp`s, x innermost: Value.inl:23-25, 50-54, 84-93. -/
def interp (L : Level) (f : List Bool → ℝ) : List ℝ → ℝ
  | [] => f []
  | t :: ts => interp L (fun bs => lerp L (f (false :: bs)) (f (true :: bs)) t) ts

/-- The part of `Value::Gen` before `ScaleOutput`, at a scaled position. -/
def valueRaw (L : Level) (seed : I32) (x : Pos) : ℝ :=
  interp L (fun bs => valueCoordF seed (corner x bs)) (x.map fun x => interpHermite L (sub x (⌊x⌋ : ℤ)))

/-- `Value::Gen`: Value.inl:7-27, 29-56, 58-95. -/
def value (L : Level) (r : Range ℝ) (scale : ℝ) (seedOffset : I32) : Src := fun seed pos =>
  scaleOutput L r (valueRaw L (seed + seedOffset) (scalePositions (frequency scale) pos)) (-valueBounds) valueBounds

/-- `White::GenT`: BasicGenerators.inl:51-58; positions are float bit patterns. -/
def white (L : Level) (r : Range ℝ) (seedOffset seed : I32) (bits : List I32) : ℝ :=
  scaleOutput L r (valueCoordF (seed + seedOffset) (List.zipWith whiteAxis bits primes)) (-valueBounds) valueBounds

/-- `Checkerboard::GenT`: BasicGenerators.inl:67-74. -/
def checkerboard (L : Level) (r : Range ℝ) (freq : ℝ) : Src := fun _ pos =>
  scaleOutput L r (castBit30 (foldXor ((scalePositions freq pos).map convertI32))) 0 2

end
end FastNoise.F32
