import Verif.Num
import Mathlib.Analysis.SpecialFunctions.Trigonometric.Basic
/-!
# Output range and basic generators

Model of `VariableRange` and `ScalableGenerator` (BasicGenerators.h:14-117, BasicGenerators.inl:10-32) and of the generators Constant,
White, Checkerboard, SineWave, Gradient and DistanceToPoint (BasicGenerators.inl:34-125).  Idealisation: see `Verif.Num`.
-/
namespace FastNoise.Basic
open FastNoise.Hash FastNoise.Num

/-- The fields of `VariableRange`, BasicGenerators.h:112-113, over any arithmetic `F`. -/
structure Range (F : Type) where
  rangeMin : F
  rangeScale : F
deriving DecidableEq

/-- `SetOutputMin`: BasicGenerators.h:95-99 -/
def Range.setMin {F} [Add F] [Sub F] (r : Range F) (v : F) : Range F :=
  { rangeScale := r.rangeScale + (r.rangeMin - v), rangeMin := v }
/-- `SetOutputMax`: BasicGenerators.h:104-107 -/
def Range.setMax {F} [Sub F] (r : Range F) (v : F) : Range F := { r with rangeScale := v - r.rangeMin }

/-- A call of one of the two setters. -/
inductive SetOp (F : Type)
  | min (v : F)
  | max (v : F)

/-- The effect of one setter call. -/
def Range.apply {F} [Add F] [Sub F] (r : Range F) : SetOp F → Range F
  | .min v => r.setMin v
  | .max v => r.setMax v

noncomputable section

/-- Default member initialisers, BasicGenerators.h:112-113. -/
def Range.init : Range ℝ := ⟨-1, 2⟩

/-- `ScaleOutput`: BasicGenerators.inl:28-31. -/
def Range.scaleOutput (r : Range ℝ) (value nativeMin nativeMax : ℝ) : ℝ :=
  fma (1 / (nativeMax - nativeMin) * r.rangeScale) (value - nativeMin) r.rangeMin

/-- `SetScale`: BasicGenerators.h:20-24 (`mFrequency`). -/
def frequency (scale : ℝ) : ℝ := 1 / scale

/-- `ScalePositions`: BasicGenerators.inl:15-20. -/
def scalePositions (freq : ℝ) (pos : Pos) : Pos := pos.map (· * freq)

/-- `Constant::GenT`: BasicGenerators.inl:39-43. -/
def constant (value : ℝ) : Src := fun _ _ => value

/-- `kValueBounds`, Utils.inl:27 -/
def valueBounds : ℝ := 2147483648

/-- The per-axis position hash of `White::GenT`: BasicGenerators.inl:56; `b` is the bit pattern of the coordinate.
`Cast<float>` to and fro does not change bits. -/
def whiteAxis (b prime : I32) : I32 := (b ^^^ b.sshiftRight 16) * prime

/-- `White::GenT`: BasicGenerators.inl:51-59; positions are float bit patterns.
Simplification: `Convert<float>` of the hash is exact (the code rounds to 24 bits). -/
def white (r : Range ℝ) (seedOffset seed : I32) (bits : List I32) : ℝ :=
  r.scaleOutput ((valueCoord (seed + seedOffset) (List.zipWith whiteAxis bits primes)).toInt) (-valueBounds) valueBounds

/-- `Cast<float>( ( value & 1 ) << 30 )`, BasicGenerators.inl:74: bit pattern 0 is 0.0, 0x40000000 is 2.0. -/
def castBit30 (v : I32) : ℝ := if (v &&& 1) <<< 30 = 0x40000000 then 2 else 0

/-- `( Convert<int32_t>( pos ) ^ ... )`, BasicGenerators.inl:72. -/
def foldXor : List I32 → I32
  | [] => 0
  | [a] => a
  | a :: r => a ^^^ foldXor r

/-- `Checkerboard::GenT`: BasicGenerators.inl:67-75. -/
def checkerboard (r : Range ℝ) (freq : ℝ) : Src := fun _ pos =>
  r.scaleOutput (castBit30 (foldXor ((scalePositions freq pos).map convertI32))) 0 2

/-- `( f( pos ) * ... )`, BasicGenerators.inl:90. -/
def foldMul (f : ℝ → ℝ) : Pos → ℝ
  | [] => 1
  | [a] => f a
  | a :: r => f a * foldMul f r

/-- `SineWave::GenT`: BasicGenerators.inl:85-91.  `FS::Sin` is the exact sine. -/
def sineWave (r : Range ℝ) (freq : ℝ) : Src := fun _ pos =>
  r.scaleOutput (foldMul Real.sin (scalePositions freq pos)) (-1) 1

/-- The fold of `Gradient::GenT`: BasicGenerators.inl:107, with the running index into `mOffset` and `mMultiplier`. -/
def gradientLoop (offset : Nat → Src) (mult : Nat → ℝ) (seed : I32) (full : Pos) : Nat → Pos → ℝ → ℝ
  | _, [], r => r
  | i, p :: ps, r => gradientLoop offset mult seed full (i + 1) ps (fma (p + offset i seed full) (mult i) r)

/-- `Gradient::GenT`: BasicGenerators.inl:100-109. -/
def gradient (offset : Nat → Src) (mult : Nat → ℝ) : Src := fun seed pos => gradientLoop offset mult seed pos 0 pos 0

/-- The lambda of `DistanceToPoint::GenT`: BasicGenerators.inl:118-122; `full` is the copy of the original position. -/
def subPoint (point : Nat → Src) (seed : I32) (full : Pos) : Nat → Pos → Pos
  | _, [] => []
  | i, p :: ps => (p - point i seed full) :: subPoint point seed full (i + 1) ps

/-- `DistanceToPoint::GenT`: BasicGenerators.inl:112-125.  The Minkowski P source is evaluated at the position relative to the point. -/
def distanceToPoint (relaxed : Bool) (fn : DistFn) (minkowskiP : Src) (point : Nat → Src) : Src := fun seed pos =>
  match subPoint point seed pos 0 pos with
  | [] => 0  -- not reached: there are at least two coordinates
  | x :: rest => calcDistance relaxed true fn minkowskiP seed x rest

end

/-! ## A rounding arithmetic

Integers kept to 24 significant bits, round to nearest even: the integer part of `float` below the overflow threshold.  Used to show where
the exact theorems do not carry over to `float`. -/

/-- Binary32 values that are integers. -/
structure F24 where
  v : Int
deriving DecidableEq

/-- Round an integer to 24 significant bits, ties to even (IEEE 754 roundTiesToEven for integers below 2^128). -/
def round24 (n : Int) : Int :=
  let a := n.natAbs
  let e := a.log2 + 1 - 24
  let q := a >>> e
  let rem := a - q <<< e
  let half := 2 ^ e / 2
  let q' := if e = 0 then q else if rem < half then q else if half < rem then q + 1 else if q % 2 = 0 then q else q + 1
  n.sign * (q' <<< e : Nat)

instance : Add F24 := ⟨fun a b => ⟨round24 (a.v + b.v)⟩⟩
instance : Sub F24 := ⟨fun a b => ⟨round24 (a.v - b.v)⟩⟩

end FastNoise.Basic
