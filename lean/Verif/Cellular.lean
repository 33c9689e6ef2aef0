import Verif.Basic
import Mathlib.Order.WithBot
/-!
# Cellular noise

Model of CellularValue, CellularDistance and CellularLookup (include/FastNoise/Generators/Cellular.inl:1-810, Cellular.h), for 2, 3 and 4
dimensions at once.  Idealisation: see `Verif.Num`.

Simplifications: the code has one hand-written copy of each generator per dimension; the model is one function of the list of coordinates
and a per-dimension table (`Tab`).  The relative position of a feature point is written `off * invMag + cell - x` everywhere; the three
generators add these terms in different orders.
-/
namespace FastNoise.Cellular
open FastNoise.Hash FastNoise.Num FastNoise.Basic

/-! ## Scanning -/

section scan
variable {D H : Type} [LinearOrder D]

/-- The insertion loop of CellularValue: Cellular.inl:70-87, 158-175, 260-277.  The array of (distance, hash) pairs from index `i` on;
`k = mValueIndex - i`, so `k = 0` is the `break`. -/
def insertValue : Nat → D × H → List (D × H) → List (D × H)
  | _, _, [] => []
  | 0, new, d :: r => (if new.1 < d.1 then new else d) :: r
  | k + 1, new, d :: r =>
    (if new.1 < d.1 then new else d) :: insertValue k (if new.1 < d.1 then d else new) r

/-- The downward loop of CellularDistance over `i = kMaxDistanceCount - 1 .. 1`: Cellular.inl:345-348, 423-426, 506-509; in place. -/
def maxMinLoop (new : D) : Nat → (Nat → D) → (Nat → D)
  | 0, d => d
  | i + 1, d => maxMinLoop new i (Function.update d (i + 1) (max (min (d (i + 1)) new) (d i)))

/-- One insertion of CellularDistance: Cellular.inl:345-350; `kMaxDistanceCount = 4`. -/
def insertDistance (d : Nat → D) (new : D) : Nat → D :=
  let d := maxMinLoop new 3 d
  Function.update d 0 (min (d 0) new)

/-- One comparison of CellularLookup: Cellular.inl:618-622, 695-700, 783-789: running minimum and its cell. -/
def insertLookup (best : D × H) (new : D × H) : D × H :=
  (min new.1 best.1, if new.1 < best.1 then new.2 else best.2)

end scan

/-- `kMaxDistanceCount`, Cellular.h:63, 102 -/
def maxDistanceCount : Nat := 4

/-- `SetValueIndex`, `SetDistanceIndex0`, `SetDistanceIndex1`: Cellular.h:65, 104-105. -/
def setIndex (value : Int) : Int := min (max value 0) (maxDistanceCount - 1)

/-! ## Cells -/

/-- The per-dimension constants and bit fields. -/
structure Tab where
  /-- the offset of the feature point before normalisation, by hash -/
  off : I32 → List ℝ
  /-- the integer that scales the size jitter, by hash, and the maximum it is divided by -/
  sizeBits : I32 → I32
  sizeMax : ℝ
  /-- `kJitter2D`, `kJitter3D`, `kJitter4D`: Cellular.inl:11-13 -/
  kJitter : ℝ

noncomputable section

/-- 2D: Cellular.inl:11, 30, 56-57, 67 (and the same in the other two generators). -/
def tab2 : Tab where
  off h := [((h &&& 0x7ff).toInt : ℝ) - 0x7ff / 2, ((h >>> 21).toInt : ℝ) - 0x7ff / 2]
  sizeBits h := h.sshiftRight 11 &&& 0x3ff
  sizeMax := 0x3ff
  kJitter := 0.437016

/-- 3D: Cellular.inl:12, 109, 141-143, 154. -/
def tab3 : Tab where
  off h := [((h &&& 0x3ff).toInt : ℝ) - 0x3ff / 2, ((h.sshiftRight 11 &&& 0x3ff).toInt : ℝ) - 0x3ff / 2, ((h >>> 22).toInt : ℝ) - 0x3ff / 2]
  sizeBits h := h &&& 0xffff
  sizeMax := 0xffff
  kJitter := 0.396144

/-- 4D: Cellular.inl:13, 200, 240-243, 256. -/
def tab4 : Tab where
  off h := [((h &&& 0xff).toInt : ℝ) - 0xff / 2, ((h.sshiftRight 8 &&& 0xff).toInt : ℝ) - 0xff / 2,
    ((h.sshiftRight 16 &&& 0xff).toInt : ℝ) - 0xff / 2, ((h >>> 24).toInt : ℝ) - 0xff / 2]
  sizeBits h := h &&& 0xfffff
  sizeMax := 0xfffff
  kJitter := 0.366025

/-- The three `Gen` overloads, selected by the number of coordinates. -/
def tab (pos : Pos) : Tab := if pos.length ≤ 2 then tab2 else if pos.length = 3 then tab3 else tab4

/-- The user settings shared by the three generators: Cellular.h:22-26 and `Seeded`, `ScalableGenerator`.
`sizeIsNode`/`sizeConst` describe the `HybridSource` mSizeJitter. -/
structure Cfg where
  seedOffset : I32
  scale : ℝ
  fn : DistFn
  minkowskiP : Src
  gridJitter : Src
  sizeIsNode : Bool
  sizeConst : ℝ
  sizeNode : Src

/-- `sizeJitterActive`: Cellular.inl:27, 106, 197, ... -/
def Cfg.sizeActive (c : Cfg) : Bool := c.sizeIsNode || decide (c.sizeConst ≠ 0)
/-- `GetSourceValue( mSizeJitter, .. )` -/
def Cfg.sizeSrc (c : Cfg) : Src := if c.sizeIsNode then c.sizeNode else Src.const c.sizeConst

/-- The three cells of one axis: their float coordinate and primed integer coordinate, Cellular.inl:39-46 and the loop increments 89-93. -/
def axisCells (x : ℝ) (prime : I32) : List (ℝ × I32) :=
  let c := convertI32 x + (-1)
  let cf : ℝ := c.toInt
  [(cf, c * prime), (cf + 1, c * prime + prime), (cf + 1 + 1, c * prime + prime + prime)]

/-- The nested loops, x outermost: Cellular.inl:48-94. -/
def nested : List (List (ℝ × I32)) → List (List (ℝ × I32))
  | [] => [[]]
  | a :: r => a.flatMap fun c => (nested r).map (c :: ·)

/-- All cells visited for a scaled position. -/
def visited (scaled : Pos) : List (List (ℝ × I32)) := nested (List.zipWith axisCells scaled primes)

/-- `HashPrimesHB( seed, xc, yc, .. )`: Cellular.inl:55. -/
def cellHash (seed : I32) (cell : List (ℝ × I32)) : I32 := hashPrimesHB seed (cell.map Prod.snd)

/-- `FMulAdd( xd, xd, FMulAdd( yd, yd, zd * zd ) )`: Cellular.inl:59, 145, 245. -/
def magSq : List ℝ → ℝ
  | [] => 0
  | [a] => a * a
  | a :: r => fma a a (magSq r)

/-- The feature point of a cell with centre `centre` and hash `h`: Cellular.inl:56-61 (`InvSqrt x = 1/√x`; its argument is never 0). -/
def featurePoint (t : Tab) (jitter : ℝ) (h : I32) (centre : List ℝ) : List ℝ :=
  let off := t.off h
  let invMag := jitter * (1 / √(magSq off))
  List.zipWith (fun o c => fma o invMag c) off centre

/-- Distance from the sample to the feature point of a cell, with size jitter: Cellular.inl:60-68. -/
def cellDistance (relaxed doSqrt : Bool) (c : Cfg) (t : Tab) (sourceSeed : I32) (sizeJitter : ℝ) (scaled : Pos) (h : I32) (point : List ℝ) : ℝ :=
  match List.zipWith (· - ·) point scaled with
  | [] => 0  -- not reached: there are at least two coordinates
  | xd :: rest =>
    let newDistance := calcDistance relaxed doSqrt c.fn c.minkowskiP sourceSeed xd rest
    if c.sizeActive then newDistance * fnma sizeJitter (t.sizeBits h).toInt 1 else newDistance

/-- What the loops compute for each visited cell: distance, hash and feature point.  Common prologue Cellular.inl:22-46. -/
def scanned (relaxed doSqrt : Bool) (c : Cfg) (seed : I32) (pos : Pos) : List (ℝ × I32 × List ℝ) :=
  let t := tab pos
  let jitter := t.kJitter * c.gridJitter seed pos
  let sizeJitter := c.sizeSrc seed pos * (-1 / t.sizeMax)
  let scaled := scalePositions (frequency c.scale) pos
  (visited scaled).map fun cell =>
    let h := cellHash (seed + c.seedOffset) cell
    let p := featurePoint t jitter h (cell.map Prod.fst)
    (cellDistance relaxed doSqrt c t seed sizeJitter scaled h p, h, p)

/-! ## The generators -/

/-- `CellularValue::Gen`: Cellular.inl:17-292.  `junk` is the uninitialised array `valueHash`.  The 2D overload computes real Euclidean distances
(`CalcDistance<true>`, line 64), the others squared ones (lines 150, 252). -/
def cellularValue (relaxed : Bool) (r : Range ℝ) (c : Cfg) (valueIndex : Nat) (junk : List I32) : Src := fun seed pos =>
  let pts := scanned relaxed (decide (pos.length ≤ 2)) c seed pos
  let arr0 : List (WithTop ℝ × I32) := (junk.take maxDistanceCount).map fun j => (⊤, j)
  let arr := pts.foldl (fun a p => insertValue valueIndex ((p.1 : WithTop ℝ), p.2.1) a) arr0
  r.scaleOutput ((arr.getD valueIndex (⊤, 0)).2.toInt) (-valueBounds) valueBounds

/-- `CellularDistance::ReturnType`: Cellular.h:93-100 -/
inductive ReturnType
  | index0 | index0Add1 | index0Sub1 | index0Mul1 | index0Div1
  deriving DecidableEq

/-- `d * InvSqrt( d )`, Cellular.inl:535-536; at 0 this is `0 * infinity`, not a number: `none`. -/
def timesInvSqrt (d : ℝ) : Option ℝ := if d = 0 then none else some (d * (1 / √d))

/-- `GetReturn`: Cellular.inl:531-565.  `none` = NaN or infinite (0 * InvSqrt( 0 ), division by 0).  With equal indices the two in-place updates
of lines 535-536 hit the same array element. -/
def getReturn (r : Range ℝ) (fn : DistFn) (rt : ReturnType) (i0 i1 : Nat) (d : Nat → ℝ) (maxDist : ℝ) : Option ℝ := do
  let d ← if fn = .euclidean then do
      let v ← timesInvSqrt (d i0)
      let d := Function.update d i0 v
      let v ← timesInvSqrt (d i1)
      pure (Function.update d i1 v)
    else pure d
  let maxDist := maxDist * maxDist
  match rt with
  | .index0 => pure (r.scaleOutput (d i0) 0 maxDist)
  | .index0Add1 => pure (r.scaleOutput (d i0 + d i1) 0 (maxDist * 2))
  | .index0Sub1 => pure (r.scaleOutput |d i0 - d i1| 0 maxDist)
  | .index0Mul1 => pure (r.scaleOutput (d i0 * d i1) 0 (maxDist * maxDist))
  | .index0Div1 => if d i1 = 0 then none else pure (r.scaleOutput (d i0 * (1 / d i1)) 0 maxDist)

/-- `CellularDistance::Gen`: Cellular.inl:294-529 (the distance array starts at infinity, line 310; at least 9 cells are visited, so all four
entries are finite at the end). -/
def cellularDistance (relaxed : Bool) (r : Range ℝ) (c : Cfg) (rt : ReturnType) (i0 i1 : Nat) (seed : I32) (pos : Pos) : Option ℝ :=
  let pts := scanned relaxed false c seed pos
  let d := pts.foldl (fun (d : Nat → WithTop ℝ) p => insertDistance d (p.1 : WithTop ℝ)) (fun _ => ⊤)
  getReturn r c.fn rt i0 i1 (fun i => (d i).untopD 0) (1 + (tab pos).kJitter)

/-- `FLT_MAX`: Cellular.inl:583, 651, 727 -/
def fltMax : ℝ := (2 - 2 ^ (-23 : ℤ)) * 2 ^ 127

/-- `CellularLookup::Gen`: Cellular.inl:568-810.  `junk` is the uninitialised `cellX, cellY, ..`. -/
def cellularLookup (relaxed : Bool) (c : Cfg) (lookup : Src) (junk : List ℝ) : Src := fun seed pos =>
  let pts := scanned relaxed false c seed pos
  let best := pts.foldl (fun b p => insertLookup b (p.1, p.2.2)) (fltMax, junk)
  lookup (seed - (-1)) (best.2.map (· * c.scale))

end
end FastNoise.Cellular
