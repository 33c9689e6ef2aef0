import Verif.FloatPerlin
import Verif.Modifiers
/-!
# Blends and value modifiers in binary32 arithmetic

The nodes of `Modifiers.lean` that compute with their sources' values, again, operation by operation, every operation rounded (`F32.lean`).  The functions give what a node returns at a
position from the values its sources return there (`GetSourceValue`).  Simplifications: those of `F32.lean`; a division by zero gives 0 here and an infinity or NaN in the code, so theorems
exclude it or are about code that overrides the result.  `FS::Reciprocal` is an approximation belonging to FastSIMD, which is not in the repository: a parameter `rcp`.
-/
namespace FastNoise.F32
open FastNoise.Hash FastNoise.Num FastNoise.Basic
open FastNoise.Modifiers (Op Interpolation fltMin)

noncomputable section

/-- `float32v / float32v` -/
def div (a b : ℝ) : ℝ := fl (a / b)

/-- Add, Subtract, Multiply, Divide, Min, Max: Blends.inl:9-12, 21-24, 33-36, 45-48, 106-109, 118-121. -/
def blend (op : Op) (a b : ℝ) : ℝ :=
  match op with
  | .add => add a b
  | .subtract => sub a b
  | .multiply => mul a b
  | .divide => div a b
  | .min => Min.min a b
  | .max => Max.max a b

/-- The loop of PowInt, `n` iterations: Blends.inl:91-94. -/
def powLoop (value : ℝ) : Nat → ℝ → ℝ
  | 0, pow => pow
  | n + 1, pow => powLoop value n (mul pow value)

/-- `PowInt::GenT`: Blends.inl:86-97. -/
def powInt (mPow : ℤ) (value : ℝ) : ℝ := powLoop value (mPow - 2).toNat (mul value value)

/-- The literal `1.0f / 6.0f`: Blends.inl:139, 159. -/
def sixth : ℝ := div 1 6

/-- `MinSmooth::GenT`: Blends.inl:129-141. -/
def minSmooth (L : Level) (rcp : ℝ → ℝ) (a b smooth : ℝ) : ℝ :=
  let smoothness := max fltMin |smooth|
  let h := max (sub smoothness |sub a b|) 0
  let h := mul h (rcp smoothness)
  fnma L sixth (mul (mul (mul h h) h) smoothness) (min a b)

/-- `MaxSmooth::GenT`: Blends.inl:149-161. -/
def maxSmooth (L : Level) (rcp : ℝ → ℝ) (a b smooth : ℝ) : ℝ :=
  let a := -a
  let b := -b
  let smoothness := max fltMin |smooth|
  let h := max (sub smoothness |sub a b|) 0
  let h := mul h (rcp smoothness)
  (-fnma L sixth (mul (mul (mul h h) h) smoothness) (min a b))

/-- The blend factor of Fade before the test for an empty range: Blends.inl:177-191. -/
def fadeFactor (L : Level) (interpolation : Interpolation) (fade fadeMin fadeMax : ℝ) : ℝ :=
  let fadeRange := sub fadeMax fadeMin
  let fade := div (sub fade fadeMin) fadeRange
  let fade := max 0 (min 1 fade)
  match interpolation with
  | .linear => fade
  | .hermite => interpHermite L fade
  | .quintic => interpQuintic L fade

/-- `Fade::GenT`: Blends.inl:170-198. -/
def fade (L : Level) (interpolation : Interpolation) (a b fade fadeMin fadeMax : ℝ) : ℝ :=
  let fadeRange := sub fadeMax fadeMin
  let fade := if fadeRange = 0 then 0.5 else fadeFactor L interpolation fade fadeMin fadeMax
  lerp L a b fade

/-- `Remap::GenT`: Modifiers.inl:81-99. -/
def remap (clamp : Bool) (fromMin fromMax toMin toMax source : ℝ) : ℝ :=
  let result := add toMin (mul (div (sub source fromMin) (sub fromMax fromMin)) (sub toMax toMin))
  if clamp then min (max result toMin) toMax else result

/-- The pixel of ConvertRGBA8: Modifiers.inl:108-126.  With `mMin = mMax` the code converts `0 * inf = NaN` to an integer, which is the "integer indefinite" 0x80000000. -/
def rgba8Word (mMin mMax v : ℝ) : I32 :=
  let source := sub (max (min v mMax) mMin) mMin
  let byteVal : I32 := if sub mMax mMin = 0 then 0x80000000 else convertI32 (mul source (div 255 (sub mMax mMin)))
  0xFF000000 ||| byteVal ||| (byteVal <<< 8) ||| (byteVal <<< 16)

/-- The smoothing of Terrace, added to the rounded value: Modifiers.inl:149-160, 166-177. -/
def terraceSmooth (rounded source recip : ℝ) : ℝ :=
  let diff := sub rounded source
  let diffSign := decide (diff < 0)
  let diff := |diff|
  let diff := sub 0.5 diff
  let diff := mul diff recip
  let diff := min diff 0.5
  let diff := if diffSign then sub 0.5 diff else sub diff 0.5
  add rounded diff

/-- Terrace with step count `c` and smoothness 0: Modifiers.inl:139-142, 180 and `SetStepCount`, Modifiers.h:289.  `FS::Round` is exact. -/
def terraceSharp (c source : ℝ) : ℝ :=
  mul (roundEven (mul source c) : ℤ) (div 1 c)

/-- Terrace with a constant smoothness `s ≠ 0`: Modifiers.inl:139-142, 163-180 and `SetSmoothness`, Modifiers.h:291. -/
def terraceConst (c s source : ℝ) : ℝ :=
  let source := mul source c
  mul (terraceSmooth (roundEven source : ℤ) source (add 1 (div 1 s))) (div 1 c)

/-- Terrace with the smoothness `s` from a generator: Modifiers.inl:139-162, 180.  `AnyMask` only skips work whose result the `Select` would discard. -/
def terraceGen (rcp : ℝ → ℝ) (c s source : ℝ) : ℝ :=
  let source := mul source c
  let rounded : ℝ := (roundEven source : ℤ)
  let rounded := if s ≠ 0 then terraceSmooth rounded source (add 1 (rcp s)) else rounded
  mul rounded (div 1 c)

/-- `PingPong::GenT` with its static function: Modifiers.inl:189-200.  `FS::Floor` is exact. -/
def pingPong (strength source : ℝ) : ℝ :=
  let t := mul source strength
  let t := sub t (mul (⌊mul t 0.5⌋ : ℤ) 2)
  if t < 1 then t else sub 2 t

end
end FastNoise.F32
