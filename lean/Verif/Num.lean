import Verif.Hash
import Mathlib.Algebra.Order.Floor.Ring
import Mathlib.Algebra.Order.Archimedean.Real.Basic
import Mathlib.Analysis.SpecialFunctions.Pow.Real
/-!
# Numeric primitives shared by the generator models

Idealisation used by every module that imports this one: a `float32v` lane is a real number.  Rounding, NaN, infinities and
signed zeros are not modelled; `FS::FMulAdd( a, b, c )` is `a * b + c`.  One lane is modelled: every operation of the generators
is lane-wise.  Seeds and hashes are exact 32 bit words.
-/
namespace FastNoise.Num
open FastNoise.Hash

noncomputable section

/-- A sample position: its 2 to 4 coordinates, x first (the parameter pack `P... pos`, Generator.inl:10-26). -/
abbrev Pos := List ℝ

/-- A generator as its callers see it: `Gen( int32v seed, float32v x, float32v y, .. )`, Generator.inl:10-26.
A `HybridSource` holding a constant (Generator.h:142-149, `GetSourceValue`, Generator.inl:49-58) is a constant function. -/
abbrev Src := I32 → Pos → ℝ

/-- `HybridSource` with a constant, Generator.h:142-149. -/
def Src.const (c : ℝ) : Src := fun _ _ => c

/-- `FS::FMulAdd`, exact. -/
def fma (a b c : ℝ) : ℝ := a * b + c
/-- `FS::FNMulAdd( a, b, c ) = -( a * b ) + c`, exact. -/
def fnma (a b c : ℝ) : ℝ := -(a * b) + c

/-- Round to nearest, ties to even: the rounding of `FS::Convert<int32_t>` and `FS::Round` (default rounding mode). -/
def roundEven (x : ℝ) : ℤ :=
  if x - ⌊x⌋ < 1 / 2 then ⌊x⌋
  else if 1 / 2 < x - ⌊x⌋ then ⌊x⌋ + 1
  else if ⌊x⌋ % 2 = 0 then ⌊x⌋ else ⌊x⌋ + 1

/-- `FS::Convert<int32_t>`: rounds to nearest even; outside the `int` range the "integer indefinite" of x86. -/
def convertI32 (x : ℝ) : I32 :=
  if -2 ^ 31 ≤ roundEven x ∧ roundEven x < 2 ^ 31 then BitVec.ofInt 32 (roundEven x) else 0x80000000

/-- `Lerp`: Utils.inl:252-255 -/
def lerp (a b t : ℝ) : ℝ := fma t (b - a) a
/-- `InterpHermite`: Utils.inl:257-260 -/
def interpHermite (t : ℝ) : ℝ := t * t * fnma t 2 3
/-- `InterpQuintic`: Utils.inl:262-265 -/
def interpQuintic (t : ℝ) : ℝ := t * t * t * fma t (fma t 6 (-15)) 10

/-- `DistanceFunction`: Generator.h:40-48, used in Utils.inl:284-333. -/
inductive DistFn
  | euclidean | euclideanSquared | manhattan | hybrid | maxAxis | minkowski
  deriving DecidableEq

/-- `FastLengthSqrt`: Utils.inl:267-279; `relaxed` = `FastSIMD::IsRelaxed()`; `InvSqrt x = 1/√x`, exact. -/
def fastLengthSqrt (relaxed : Bool) (sqrDist : ℝ) : ℝ :=
  if relaxed then (if sqrDist ≠ 0 then sqrDist * (1 / √sqrDist) else 0) else √sqrDist

/-- The sum of squares of Utils.inl:290-291, 298-299. -/
def sumSq (pX : ℝ) (pos : Pos) : ℝ := pos.foldl (fun d p => fma p p d) (pX * pX)

/-- `( f( pos ) + ... )`: a right fold without initial value; there are at least two coordinates, so the pack is not empty. -/
def foldPlus (f : ℝ → ℝ) : Pos → ℝ
  | [] => 0
  | [a] => f a
  | a :: r => f a + foldPlus f r

/-- `CalcDistance<DO_SQRT>`: Utils.inl:281-335.  With `DO_SQRT = false` the Euclidean case falls through to the squared one. -/
def calcDistance (relaxed doSqrt : Bool) (fn : DistFn) (minkowskiP : Src) (seed : I32) (pX : ℝ) (pos : Pos) : ℝ :=
  match fn with
  | .euclidean => if doSqrt then fastLengthSqrt relaxed (sumSq pX pos) else sumSq pX pos
  | .euclideanSquared => sumSq pX pos
  | .manhattan => |pX| + foldPlus (fun p => |p|) pos
  | .hybrid => pos.foldl (fun both p => both + fma p p |p|) (fma pX pX |pX|)
  | .maxAxis => pos.foldl (fun m p => max |p| m) |pX|
  | .minkowski =>
    let mp := minkowskiP seed (pX :: pos)
    (|pX| ^ mp + foldPlus (fun p => |p| ^ mp) pos) ^ (1 / mp)

end
end FastNoise.Num
