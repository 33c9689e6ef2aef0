import Verif.Basic
/-!
# Modifiers and blends

Model of include/FastNoise/Generators/Modifiers.inl (all nodes except GeneratorCache, which is `Verif.Cache`) with the setters of Modifiers.h,
and of Blends.inl (all nodes except Modulus: `FS::Modulus` belongs to FastSIMD, which is not in the repository).
Idealisation: see `Verif.Num`; in addition a division by zero, which gives an infinity or NaN in the code, gives 0 here, so that the
theorems exclude it or are about code that overrides the result.  `FS::Reciprocal x` is exact.
-/
namespace FastNoise.Modifiers
open FastNoise.Hash FastNoise.Num FastNoise.Basic

noncomputable section

/-! ## Modifiers of the position -/

/-- `DomainScale::GenT`: Modifiers.inl:9-12. -/
def domainScale (scale : ℝ) (source : Src) : Src := fun seed pos => source seed (pos.map (· * scale))

/-- `DomainOffset::GenT`: Modifiers.inl:21-30; `idx` counts the coordinates, and every offset is evaluated at the original position. -/
def domainOffset (offset : Nat → Src) (source : Src) : Src := fun seed pos =>
  source seed (pos.mapIdx fun idx o => o + offset idx seed pos)

/-- `DomainAxisScale::GenT`: Modifiers.inl:209-215. -/
def domainAxisScale (scale : Nat → ℝ) (source : Src) : Src := fun seed pos => source seed (pos.mapIdx fun idx p => p * scale idx)

/-- The members of DomainRotate: Modifiers.h:90-105. -/
structure Rot where
  yawCos : ℝ := 1
  yawSin : ℝ := 0
  pitchCos : ℝ := 1
  pitchSin : ℝ := 0
  rollCos : ℝ := 1
  rollSin : ℝ := 0
  xa : ℝ := 1
  xb : ℝ := 0
  xc : ℝ := 0
  ya : ℝ := 0
  yb : ℝ := 1
  yc : ℝ := 0
  za : ℝ := 0
  zb : ℝ := 0
  zc : ℝ := 1

/-- `CalculateRotation`: Modifiers.h:107-120. -/
def Rot.calculate (r : Rot) : Rot :=
  { r with
    xa := r.yawCos * r.pitchCos
    xb := r.yawCos * r.pitchSin * r.rollSin - r.yawSin * r.rollCos
    xc := r.yawCos * r.pitchSin * r.rollCos + r.yawSin * r.rollSin
    ya := r.yawSin * r.pitchCos
    yb := r.yawSin * r.pitchSin * r.rollSin + r.yawCos * r.rollCos
    yc := r.yawSin * r.pitchSin * r.rollCos - r.yawCos * r.rollSin
    za := -r.pitchSin
    zb := r.pitchCos * r.rollSin
    zc := r.pitchCos * r.rollCos }

/-- The setters of DomainRotate, `std::cos` and `std::sin` exact: Modifiers.h:84-86. -/
inductive RotOp
  | yaw (value : ℝ) | pitch (value : ℝ) | roll (value : ℝ)

/-- Modifiers.h:84-86. -/
def Rot.set (r : Rot) : RotOp → Rot
  | .yaw v => { r with yawCos := Real.cos v, yawSin := Real.sin v }.calculate
  | .pitch v => { r with pitchCos := Real.cos v, pitchSin := Real.sin v }.calculate
  | .roll v => { r with rollCos := Real.cos v, rollSin := Real.sin v }.calculate

/-- A DomainRotate node after a sequence of setter calls. -/
def Rot.after (ops : List RotOp) : Rot := ops.foldl Rot.set {}

/-- The 3D rotation: Modifiers.inl:48-54. -/
def rotate3 (r : Rot) (x y z : ℝ) : Pos :=
  [fma x r.xa (fma y r.xb (z * r.xc)), fma x r.ya (fma y r.yb (z * r.yc)), fma x r.za (fma y r.zb (z * r.zc))]

/-- The position DomainRotate hands to its source: Modifiers.inl:36-60.  Other dimensions do not occur. -/
def rotatePos (r : Rot) : Pos → Pos
  | [x, y] =>
    if r.pitchSin = 0 ∧ r.rollSin = 0 then [fnma y r.yawSin (x * r.yawCos), fma x r.yawSin (y * r.yawCos)] else rotate3 r x y 0
  | [x, y, z] => rotate3 r x y z
  | p => p

/-- `DomainRotate::Gen`: Modifiers.inl:36-60. -/
def domainRotate (r : Rot) (source : Src) : Src := fun seed pos => source seed (rotatePos r pos)

/-- `PlaneRotationType`: Modifiers.h:545-549 -/
inductive Plane
  | xy | xz

/-- The float literal `-0.211324865405187f`, exactly: Modifiers.inl:365, 376. -/
def kS2 : ℝ := -3545443 / 16777216
/-- The float literal `0.577350269189626f`, exactly: Modifiers.inl:366, 369, 377, 380. -/
def kThird : ℝ := 4843165 / 8388608

/-- `RotateCoords`: Modifiers.inl:354-390. -/
def rotateCoords (t : Plane) (x y z : ℝ) : ℝ × ℝ × ℝ :=
  match t with
  | .xy =>
    let xy := x + y
    let s2 := xy * kS2
    let newZ := z * kThird
    (x + s2 - newZ, y + s2 - newZ, newZ + xy * kThird)
  | .xz =>
    let xz := x + z
    let s2 := xz * kS2
    let newY := y * kThird
    (x + s2 - newY, newY + xz * kThird, z + s2 - newY)

/-- The position DomainRotatePlane hands to its source: Modifiers.inl:392-408. -/
def rotatePlanePos (t : Plane) : Pos → Pos
  | [x, y] => let r := rotateCoords .xy x y 0; [r.1, r.2.1, r.2.2]
  | [x, y, z] => let r := rotateCoords t x y z; [r.1, r.2.1, r.2.2]
  | [x, y, z, w] => let r := rotateCoords t x y z; [r.1, r.2.1, r.2.2, w]
  | p => p

/-- `DomainRotatePlane::Gen`: Modifiers.inl:392-408. -/
def domainRotatePlane (t : Plane) (source : Src) : Src := fun seed pos => source seed (rotatePlanePos t pos)

/-- `SeedOffset::GenT`: Modifiers.inl:69-72. -/
def seedOffset (offset : I32) (source : Src) : Src := fun seed pos => source (seed + offset) pos

/-- `AddDimension::GenT`: Modifiers.inl:224-234. -/
def addDimension (newPos source : Src) : Src := fun seed pos =>
  if pos.length = 4 then source seed pos else source seed (pos ++ [newPos seed pos])

/-- `RemoveDimension::Gen`: Modifiers.inl:240-275; `dim` is 0 for X to 3 for W. -/
def removeDimension (dim : Nat) (source : Src) : Src := fun seed pos =>
  match pos with
  | [x, y] => source seed [x, y]
  | [x, y, z] =>
    if dim = 0 then source seed [y, z] else if dim = 1 then source seed [x, z] else if dim = 2 then source seed [x, y] else source seed [x, y, z]
  | [x, y, z, w] =>
    if dim = 0 then source seed [y, z, w] else if dim = 1 then source seed [x, z, w] else if dim = 2 then source seed [x, y, w]
    else if dim = 3 then source seed [x, y, z] else source seed [x, y, z, w]
  | p => source seed p

/-! ## Modifiers of the value -/

/-- `Remap::GenT`: Modifiers.inl:81-99. -/
def remap (clamp : Bool) (fromMin fromMax toMin toMax source : Src) : Src := fun seed pos =>
  let source := source seed pos
  let fromMin := fromMin seed pos
  let fromMax := fromMax seed pos
  let toMin := toMin seed pos
  let toMax := toMax seed pos
  let result := toMin + ((source - fromMin) / (fromMax - fromMin) * (toMax - toMin))
  if clamp then min (max result toMin) toMax else result

/-- The pixel of ConvertRGBA8: Modifiers.inl:108-126.  With `mMin = mMax` the code converts `0 * inf = NaN` to an integer, which is the
"integer indefinite" 0x80000000. -/
def rgba8Word (mMin mMax v : ℝ) : I32 :=
  let source := max (min v mMax) mMin - mMin
  let byteVal : I32 := if mMin = mMax then 0x80000000 else convertI32 (source * (255 / (mMax - mMin)))
  0xFF000000 ||| byteVal ||| (byteVal <<< 8) ||| (byteVal <<< 16)

/-- The members of Terrace apart from the source: Modifiers.h:296-299.  `smoothGen` is the generator of the hybrid smoothness. -/
structure TerraceSt where
  smoothGen : Option Src := none
  smoothConst : ℝ := 0
  smoothRecip : ℝ := 0
  stepCount : ℝ := 1
  stepCountRecip : ℝ := 1

/-- The setters of Terrace: Modifiers.h:289-292.  Setting the constant disconnects the generator (`HybridSourceT::operator=`, Generator.h:142-149). -/
inductive TerraceOp
  | stepCount (c : ℝ) | smoothness (s : ℝ) | smoothnessGen (g : Src)

/-- Modifiers.h:289-292. -/
def TerraceSt.set (t : TerraceSt) : TerraceOp → TerraceSt
  | .stepCount c => { t with stepCount := c, stepCountRecip := 1 / c }
  | .smoothness s =>
    let t := { t with smoothGen := none, smoothConst := s }
    if s ≠ 0 then { t with smoothRecip := 1 + 1 / s } else t
  | .smoothnessGen g => { t with smoothGen := some g }

/-- A Terrace node after a sequence of setter calls. -/
def TerraceSt.after (ops : List TerraceOp) : TerraceSt := ops.foldl TerraceSt.set {}

/-- The smoothing common to both branches: Modifiers.inl:149-158, 166-175. -/
def terraceDiff (rounded source recip : ℝ) : ℝ :=
  let diff := rounded - source
  let diffSign := decide (diff < 0)
  let diff := |diff|
  let diff := 0.5 - diff
  let diff := diff * recip
  let diff := min diff 0.5
  if diffSign then 0.5 - diff else diff - 0.5

/-- `Terrace::GenT`: Modifiers.inl:135-181.  `AnyMask` only skips work whose result the `Select` of line 160 would discard. -/
def terrace (t : TerraceSt) (source : Src) : Src := fun seed pos =>
  let source := source seed pos * t.stepCount
  let rounded : ℝ := (roundEven source : ℝ)
  let rounded := match t.smoothGen with
    | some g =>
      let smoothness := g seed pos
      if smoothness ≠ 0 then rounded + terraceDiff rounded source (1 + 1 / smoothness) else rounded
    | none => if t.smoothConst ≠ 0 then rounded + terraceDiff rounded source t.smoothRecip else rounded
  rounded * t.stepCountRecip

/-- The static function `PingPong( t )`: Modifiers.inl:189-193. -/
def pingPongFn (t : ℝ) : ℝ :=
  let t := t - (⌊t * 0.5⌋ : ℤ) * 2
  if t < 1 then t else 2 - t

/-- `PingPong::GenT`: Modifiers.inl:195-200. -/
def pingPong (strength source : Src) : Src := fun seed pos => pingPongFn (source seed pos * strength seed pos)

/-- `SignedSquareRoot::GenT`: Modifiers.inl:328-334; or-ing the sign bit into a non-negative float negates it if the value is negative. -/
def signedSqrt (relaxed : Bool) (source : Src) : Src := fun seed pos =>
  let value := source seed pos
  let root := fastLengthSqrt relaxed |value|
  if value < 0 then -root else root

/-- `Abs::GenT`: Modifiers.inl:342-348. -/
def absNode (source : Src) : Src := fun seed pos => |source seed pos|

/-! ## Blends -/

/-- The operators: Add, Subtract, Multiply, Divide, Min, Max: Blends.inl:3-49, 100-122. -/
inductive Op
  | add | subtract | multiply | divide | min | max
  deriving DecidableEq

/-- Blends.inl:9-12, 21-24, 33-36, 45-48, 106-109, 118-121. -/
def blend (op : Op) (lhs rhs : Src) : Src := fun seed pos =>
  match op with
  | .add => lhs seed pos + rhs seed pos
  | .subtract => lhs seed pos - rhs seed pos
  | .multiply => lhs seed pos * rhs seed pos
  | .divide => lhs seed pos / rhs seed pos
  | .min => Min.min (lhs seed pos) (rhs seed pos)
  | .max => Max.max (lhs seed pos) (rhs seed pos)

/-- `FLT_MIN` = 2^-126. -/
def fltMin : ℝ := 2 ^ (-126 : ℤ)

/-- `PowFloat::GenT`: Blends.inl:72-77; `Pow` exact. -/
def powFloat (value pow : Src) : Src := fun seed pos => (max |value seed pos| fltMin) ^ (pow seed pos)

/-- The loop of PowInt, `n` iterations: Blends.inl:92-95. -/
def powLoop (value : ℝ) : Nat → ℝ → ℝ
  | 0, pow => pow
  | n + 1, pow => powLoop value n (pow * value)

/-- `PowInt::GenT`: Blends.inl:86-97; the loop runs from 2 to `mPow - 1`. -/
def powInt (mPow : ℤ) (value : Src) : Src := fun seed pos =>
  let value := value seed pos
  powLoop value (mPow - 2).toNat (value * value)

/-- MinSmooth on values: Blends.inl:130-141. -/
def minSmoothFn (a b smooth : ℝ) : ℝ :=
  let smoothness := max fltMin |smooth|
  let h := max (smoothness - |a - b|) 0
  let h := h * (1 / smoothness)
  fnma (1 / 6) (h * h * h * smoothness) (min a b)

/-- `MinSmooth::GenT`: Blends.inl:129-141. -/
def minSmooth (smoothness lhs rhs : Src) : Src := fun seed pos => minSmoothFn (lhs seed pos) (rhs seed pos) (smoothness seed pos)

/-- `MaxSmooth::GenT`: Blends.inl:149-161. -/
def maxSmooth (smoothness lhs rhs : Src) : Src := fun seed pos => -minSmoothFn (-lhs seed pos) (-rhs seed pos) (smoothness seed pos)

/-- `Fade::Interpolation`: Blends.h:294-299. -/
inductive Interpolation
  | linear | hermite | quintic

/-- `Fade::GenT`: Blends.inl:170-198. -/
def fade (interpolation : Interpolation) (a b fade fadeMin fadeMax : Src) : Src := fun seed pos =>
  let fade := fade seed pos
  let fadeMin := fadeMin seed pos
  let fadeMax := fadeMax seed pos
  let fadeRange := fadeMax - fadeMin
  let fade := (fade - fadeMin) / fadeRange
  let fade := max 0 (min 1 fade)
  let fade := match interpolation with
    | .linear => fade
    | .hermite => interpHermite fade
    | .quintic => interpQuintic fade
  let fade := if fadeRange = 0 then 0.5 else fade
  lerp (a seed pos) (b seed pos) fade

end
end FastNoise.Modifiers
