import Verif.FloatNoise
import Verif.Cellular
/-!
# Cellular noise in binary32 arithmetic

The generators of `Cellular.lean` again, operation by operation, with every operation rounded (`F32.lean`): include/FastNoise/Generators/Cellular.inl:1-810.  The code has one
hand-written copy per dimension; the model is one function of the list of coordinates, but keeps the three generators apart, because they subtract the sample position at different
points of the computation (`Gen`).

`FS::InvSqrt` and `FS::Reciprocal` are approximations that differ between processors: they are parameters (`Chip`).  The Minkowski metric (`FS::Pow`) is a parameter too: nothing is
proved about its values.  As in `F32.lean` overflow is not modelled.
-/
namespace FastNoise.FloatCellular
open FastNoise.Hash FastNoise.Num FastNoise.Basic FastNoise.F32
open FastNoise.Cellular (Cfg Tab tab nested cellHash insertValue insertDistance insertLookup ReturnType maxDistanceCount)

noncomputable section

/-- What of the processor matters: fused multiply-add (`Level`), its reciprocal square root and reciprocal, and `FS::Pow` as it is used by the Minkowski metric
(exponent, first coordinate, the others: Utils.inl:327-332). -/
structure Chip extends Level where
  invSqrt : ℝ → ℝ
  reciprocal : ℝ → ℝ
  minkowski : ℝ → ℝ → List ℝ → ℝ

/-- The three generators CellularValue, CellularDistance, CellularLookup. -/
inductive Gen
  | value | distance | lookup
  deriving DecidableEq

/-- `FS::Convert<float>( int32v )` -/
def conv (i : I32) : ℝ := fl i.toInt

/-- The three cells of one axis: float coordinate and primed integer coordinate.  CellularValue subtracts the sample before the loops (Cellular.inl:39-46 and the increments 89-93),
the other two keep the coordinate of the cell (315-322, 352-356; 590-597, 626-630). -/
def axisCells (g : Gen) (x : ℝ) (prime : I32) : List (ℝ × I32) :=
  let c := convertI32 x + (-1)
  let cf := match g with
    | .value => sub (conv c) x
    | .distance | .lookup => conv c
  [(cf, c * prime), (add cf 1, c * prime + prime), (add (add cf 1) 1, c * prime + prime + prime)]

/-- All cells visited for a scaled position, x outermost: Cellular.inl:48-94. -/
def visited (g : Gen) (scaled : Pos) : List (List (ℝ × I32)) := nested (List.zipWith (axisCells g) scaled primes)

/-- The direction of the feature point, by hash.  2D: Cellular.inl:56-57; 3D: 141-143; 4D: 240-243 (the constants `0x7ff / 2.0f` are exact). -/
def off (n : Nat) (h : I32) : List ℝ :=
  if n ≤ 2 then [sub (conv (h &&& 0x7ff)) (0x7ff / 2), sub (conv (h >>> 21)) (0x7ff / 2)]
  else if n = 3 then [sub (conv (h &&& 0x3ff)) (0x3ff / 2), sub (conv (h.sshiftRight 11 &&& 0x3ff)) (0x3ff / 2), sub (conv (h >>> 22)) (0x3ff / 2)]
  else [sub (conv (h &&& 0xff)) (0xff / 2), sub (conv (h.sshiftRight 8 &&& 0xff)) (0xff / 2),
    sub (conv (h.sshiftRight 16 &&& 0xff)) (0xff / 2), sub (conv (h >>> 24)) (0xff / 2)]

/-- `FMulAdd( xd, xd, FMulAdd( yd, yd, zd * zd ) )`: Cellular.inl:59, 145, 245. -/
def magSq (L : Level) : List ℝ → ℝ
  | [] => 0
  | [a] => mul a a
  | a :: r => fma L a a (magSq L r)

/-- The relative position of the feature point along one axis.  CellularValue: Cellular.inl:60-61 (`cf` is already relative); CellularDistance: 325, 335-336;
CellularLookup: 612-615. -/
def relative (L : Level) (g : Gen) (o invMag cf x : ℝ) : ℝ := match g with
  | .value => fma L o invMag cf
  | .distance => fma L o invMag (sub cf x)
  | .lookup => sub (fma L o invMag cf) x

/-- `CalcDistance`: Utils.inl:281-335.  `FS::Sqrt` is correctly rounded; the relaxed variant of `FastLengthSqrt` (267-279) is not modelled, as in `F32.lean`. -/
def calcDistance (A : Chip) (doSqrt : Bool) (fn : DistFn) (mp : ℝ) (pX : ℝ) (pos : Pos) : ℝ :=
  let sumSq := pos.foldl (fun s p => fma A.toLevel p p s) (mul pX pX)
  match fn with
  | .euclidean => if doSqrt then fl √sumSq else sumSq
  | .euclideanSquared => sumSq
  | .manhattan => match pos with
    | [] => |pX|  -- not reached: there are at least two coordinates
    | _ => add |pX| (foldPlusF pos)
  | .hybrid => pos.foldl (fun both p => add both (fma A.toLevel p p |p|)) (fma A.toLevel pX pX |pX|)
  | .maxAxis => pos.foldl (fun m p => max |p| m) |pX|
  | .minkowski => A.minkowski mp pX pos
where
  /-- `( FS::Abs( pos ) + ... )`: Utils.inl:308, a right fold. -/
  foldPlusF : List ℝ → ℝ
    | [] => 0  -- not reached
    | [a] => |a|
    | a :: r => add |a| (foldPlusF r)

/-- Distance to the feature point of a cell, with size jitter: Cellular.inl:62-68, 338-343, 616-621 (and 26-31 for `sizeJitter`). -/
def cellDistance (A : Chip) (g : Gen) (doSqrt : Bool) (c : Cfg) (seed : I32) (sizeJitter : ℝ) (t : Tab) (scaled : Pos) (h : I32) (os : List ℝ) (invMag : ℝ) (cfs : List ℝ) : ℝ :=
  match List.zipWith (fun o q => relative A.toLevel g o invMag q.1 q.2) os (cfs.zip scaled) with
  | [] => 0  -- not reached
  | xd :: rest =>
    let d := calcDistance A doSqrt c.fn (c.minkowskiP seed (xd :: rest)) xd rest
    if c.sizeActive then mul d (fnma A.toLevel sizeJitter (conv (t.sizeBits h)) 1) else d

/-- What the loops compute for each visited cell: distance, hash, and the feature point (used by CellularLookup alone).  Common prologue Cellular.inl:22-46. -/
def scanned (A : Chip) (g : Gen) (doSqrt : Bool) (c : Cfg) (seed : I32) (pos : Pos) : List (ℝ × I32 × List ℝ) :=
  let t := tab pos
  let jitter := mul (fl t.kJitter) (c.gridJitter seed pos)
  let sizeJitter := mul (c.sizeSrc seed pos) (fl (-1 / t.sizeMax))
  let scaled := F32.scalePositions (F32.frequency c.scale) pos
  (visited g scaled).map fun cell =>
    let h := cellHash (seed + c.seedOffset) cell
    let os := off pos.length h
    let invMag := mul jitter (A.invSqrt (magSq A.toLevel os))
    (cellDistance A g doSqrt c seed sizeJitter t scaled h os invMag (cell.map Prod.fst), h,
      List.zipWith (fun o cf => fma A.toLevel o invMag cf) os (cell.map Prod.fst))

/-- `CellularValue::Gen`: Cellular.inl:17-292.  `junk` is the uninitialised array `valueHash`. -/
def cellularValue (A : Chip) (r : Range ℝ) (c : Cfg) (valueIndex : Nat) (junk : List I32) : Src := fun seed pos =>
  let pts := scanned A .value (decide (pos.length ≤ 2)) c seed pos
  let arr0 : List (WithTop ℝ × I32) := (junk.take maxDistanceCount).map fun j => (⊤, j)
  let arr := pts.foldl (fun a p => insertValue valueIndex ((p.1 : WithTop ℝ), p.2.1) a) arr0
  F32.scaleOutput A.toLevel r (conv (arr.getD valueIndex (⊤, 0)).2) (-valueBounds) valueBounds

/-- The array `distance` of CellularDistance after the loops: Cellular.inl:309-357. -/
def distances (A : Chip) (c : Cfg) (seed : I32) (pos : Pos) : Nat → ℝ :=
  let d := (scanned A .distance false c seed pos).foldl (fun (d : Nat → WithTop ℝ) p => insertDistance d (p.1 : WithTop ℝ)) (fun _ => ⊤)
  fun i => (d i).untopD 0

/-- `GetReturn`: Cellular.inl:531-565; `none` = NaN or infinite.  `maxDist` is `1 + kJitter` (float arithmetic), then squared. -/
def getReturn (A : Chip) (r : Range ℝ) (fn : DistFn) (rt : ReturnType) (i0 i1 : Nat) (d : Nat → ℝ) (maxDist : ℝ) : Option ℝ := do
  let root (v : ℝ) : Option ℝ := if v = 0 then none else some (mul v (A.invSqrt v))
  let d ← if fn = .euclidean then do
      let v ← root (d i0)
      let d := Function.update d i0 v
      let v ← root (d i1)
      pure (Function.update d i1 v)
    else pure d
  let maxDist := mul maxDist maxDist
  match rt with
  | .index0 => pure (F32.scaleOutput A.toLevel r (d i0) 0 maxDist)
  | .index0Add1 => pure (F32.scaleOutput A.toLevel r (add (d i0) (d i1)) 0 (mul maxDist 2))
  | .index0Sub1 => pure (F32.scaleOutput A.toLevel r |sub (d i0) (d i1)| 0 maxDist)
  | .index0Mul1 => pure (F32.scaleOutput A.toLevel r (mul (d i0) (d i1)) 0 (mul maxDist maxDist))
  | .index0Div1 => if d i1 = 0 then none else pure (F32.scaleOutput A.toLevel r (mul (d i0) (A.reciprocal (d i1))) 0 maxDist)

/-- `CellularDistance::Gen`: Cellular.inl:294-529. -/
def cellularDistance (A : Chip) (r : Range ℝ) (c : Cfg) (rt : ReturnType) (i0 i1 : Nat) (seed : I32) (pos : Pos) : Option ℝ :=
  getReturn A r c.fn rt i0 i1 (distances A c seed pos) (add 1 (fl (tab pos).kJitter))

/-- `CellularLookup::Gen`: Cellular.inl:568-810.  `junk` is the uninitialised `cellX, cellY, ..`. -/
def cellularLookup (A : Chip) (c : Cfg) (lookup : Src) (junk : List ℝ) : Src := fun seed pos =>
  let pts := scanned A .lookup false c seed pos
  let best := pts.foldl (fun b p => insertLookup b (p.1, p.2.2)) (Cellular.fltMax, junk)
  lookup (seed - (-1)) (best.2.map fun v => mul v c.scale)

end
end FastNoise.FloatCellular
