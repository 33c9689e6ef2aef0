import Verif.DmcTable
import Mathlib.Analysis.Real.Sqrt

/-!
# The mesh preview: `tools/NodeEditor/MeshNoisePreview.cpp`

`float` is modelled by the reals, the array indices (`int32_t`, `uint32_t`, all below 132^3) by integers.
Reading outside an array is undefined behaviour: the outcome `none`.
-/

namespace FastNoise.Mesh

/-- `Magnum::Vector3`. -/
@[ext] structure V3 where
  x : ℝ
  y : ℝ
  z : ℝ

/-- Sum of vectors. -/
noncomputable instance : Add V3 := ⟨fun a b => ⟨a.x + b.x, a.y + b.y, a.z + b.z⟩⟩
/-- Difference of vectors. -/
noncomputable instance : Sub V3 := ⟨fun a b => ⟨a.x - b.x, a.y - b.y, a.z - b.z⟩⟩

/-- `Magnum::Vector3i`. -/
@[ext] structure I3 where
  x : ℤ
  y : ℤ
  z : ℤ
deriving DecidableEq

/-- `Chunk::BuildData` (MeshNoisePreview.h:130-141), the fields the meshes depend on.  `size` is `Chunk::SIZE` (128); `gen` is `generatorScaled`
evaluated with the seed. -/
structure Build where
  size : Nat
  pos : I3
  iso : ℝ
  gen : ℝ → ℝ → ℝ → ℝ
  swapYZ : Bool

/-- MeshNoisePreview.cpp:32-54 `GridPositions3D` (closed form of the triple loop) and 450-456, 598-604: the density array. -/
noncomputable def density (b : Build) (S : Nat) (start : ℤ) (idx : Nat) : ℝ :=
  let x : ℝ := (((idx % S : Nat) : ℤ) + start : ℤ)
  let y : ℝ := (((idx / S % S : Nat) : ℤ) + start : ℤ)
  let z : ℝ := (((idx / (S * S) : Nat) : ℤ) + start : ℤ)
  if b.swapYZ then b.gen (x + b.pos.x) (z + b.pos.z) (y + b.pos.y) else b.gen (x + b.pos.x) (y + b.pos.y) (z + b.pos.z)

/-- All array elements read exist. -/
def Readable (len : Nat) (reads : List ℤ) : Prop := ∀ i ∈ reads, 0 ≤ i ∧ i < len

/-! ### Dual marching cubes (592-954) -/

/-- The eight corners of a cell in the order of the cell code (774-789); `S` is `SIZE_GEN`. -/
def corners (S : Nat) (cell : Nat) : List Nat :=
  [cell, cell + 1, cell + S, cell + 1 + S, cell + S * S, cell + 1 + S * S, cell + S + S * S, cell + 1 + S + S * S]

/-- 773-789 from the answers to the eight comparisons "> isoSurface". -/
def codeOf (b0 b1 b2 b3 b4 b5 b6 b7 : Bool) : Nat :=
  (if b0 then 1 else 0) ||| (if b1 then 2 else 0) ||| (if b2 then 4 else 0) ||| (if b3 then 8 else 0) ||| (if b4 then 16 else 0) |||
    (if b5 then 32 else 0) ||| (if b6 then 64 else 0) ||| (if b7 then 128 else 0)

open Classical in
/-- 773-789. -/
noncomputable def cellCode (d : Nat → ℝ) (iso : ℝ) (S cell : Nat) : Nat :=
  codeOf (d cell > iso) (d (cell + 1) > iso) (d (cell + S) > iso) (d (cell + 1 + S) > iso) (d (cell + S * S) > iso) (d (cell + 1 + S * S) > iso)
    (d (cell + S + S * S) > iso) (d (cell + 1 + S + S * S) > iso)

/-- 791-799: the first dual point of the cell that contains the edge; 0 if none. -/
def pointCode (code edge : Nat) : Nat :=
  ((dualPointsList.getD code []).find? fun p => p &&& edge != 0).getD 0

/-- 816-887: the intersection of the surface with cell edge `k`, relative to the cell. -/
noncomputable def edgePoint (d : Nat → ℝ) (iso : ℝ) (S c : Nat) (k : Nat) : V3 :=
  let t (a b : Nat) : ℝ := (iso - d a) / (d b - d a)
  match k with
  | 0 => ⟨t c (c + 1), 0, 0⟩
  | 1 => ⟨1, 0, t (c + 1) (c + 1 + S * S)⟩
  | 2 => ⟨t (c + S * S) (c + 1 + S * S), 0, 1⟩
  | 3 => ⟨0, 0, t c (c + S * S)⟩
  | 4 => ⟨t (c + S) (c + 1 + S), 1, 0⟩
  | 5 => ⟨1, 1, t (c + 1 + S) (c + 1 + S + S * S)⟩
  | 6 => ⟨t (c + S + S * S) (c + 1 + S + S * S), 1, 1⟩
  | 7 => ⟨0, 1, t (c + S) (c + S + S * S)⟩
  | 8 => ⟨0, t c (c + S), 0⟩
  | 9 => ⟨1, t (c + 1) (c + 1 + S), 0⟩
  | 10 => ⟨1, t (c + 1 + S * S) (c + 1 + S + S * S), 1⟩
  | _ => ⟨0, t (c + S * S) (c + S + S * S), 1⟩

/-- The edges of a point code, in the order of lines 816-887. -/
def edgesOf (pc : Nat) : List Nat := (List.range 12).filter fun k => pc &&& 2 ^ k != 0

/-- 813-889: the mean of the intersections with the edges of the point code. -/
noncomputable def vert (d : Nat → ℝ) (iso : ℝ) (S c pc : Nat) : V3 :=
  let sum := ((edgesOf pc).map (edgePoint d iso S c)).foldl (· + ·) ⟨0, 0, 0⟩
  let k : ℝ := (edgesOf pc).length
  ⟨sum.x / k, sum.y / k, sum.z / k⟩

/-- 893-895: `STEP & (int)lroundf( -v )` for `0 ≤ v ≤ 1` (which is proved of every vertex): `lroundf` gives 0 or -1. -/
noncomputable def derivOffset (step : Nat) (v : ℝ) : Nat := if v < 1 / 2 then 0 else step

/-- `ImLerp`. -/
noncomputable def lerp (a b t : ℝ) : ℝ := a + (b - a) * t

/-- The four cells (903-942 with the respective loop variable -1) whose difference quotients enter one component of the derivative: offsets of the other
two axes with their weights. -/
noncomputable def quarter (s1 s2 : Nat) (v1 v2 : ℝ) : List (Nat × ℝ) :=
  [(0, |v1 - 1| * |v2 - 1|), (s1, |v1| * |v2 - 1|), (s2, |v1 - 1| * |v2|), (s1 + s2, |v1| * |v2|)]

/-- 912-937, one component: `step` along the axis, `v` the vertex coordinate on it, `q` the four cells; `derivDelta` is the fractional part of
`v + 0.5` (897-898). -/
noncomputable def derivative (d : Nat → ℝ) (c step : Nat) (v : ℝ) (q : List (Nat × ℝ)) : ℝ :=
  (q.map fun p =>
    let i := c + p.1 + derivOffset step v
    p.2 * lerp (d (i - step) - d i) (d i - d (i + step)) (Int.fract (v + 1 / 2))).sum

/-- The elements `derivative` reads. -/
noncomputable def derivReads (c step : Nat) (v : ℝ) (q : List (Nat × ℝ)) : List ℤ :=
  q.flatMap fun p =>
    let i : ℤ := (c + p.1 + derivOffset step v : Nat)
    [i - step, i, i + step]

/-- 891-950: brightness of a vertex.  A vanishing derivative gives NaN and then 1 (947-948).  The constant direction is normalised exactly here. -/
noncomputable def light (d : Nat → ℝ) (S c : Nat) (v : V3) : ℝ :=
  let gx := derivative d c 1 v.x (quarter S (S * S) v.y v.z)
  let gy := derivative d c S v.y (quarter 1 (S * S) v.x v.z)
  let gz := derivative d c (S * S) v.z (quarter 1 S v.x v.y)
  let len := √(gx ^ 2 + gy ^ 2 + gz ^ 2)
  let dir := √(0.6 ^ 2 + 1 ^ 2 + 0.4 ^ 2)
  if len = 0 then 1 else
    let l := ((-0.6 / dir) * (gx / len) + (-1 / dir) * (gy / len) + (-0.4 / dir) * (gz / len)) * (0.5 - 0.3 * 0.5) + (0.5 + 0.3 * 0.5)
    min 1 (l * l)

/-- What lines 891-942 read. -/
noncomputable def lightReads (S c : Nat) (v : V3) : List ℤ :=
  derivReads c 1 v.x (quarter S (S * S) v.y v.z) ++ derivReads c S v.y (quarter 1 (S * S) v.x v.z) ++
    derivReads c (S * S) v.z (quarter 1 S v.x v.y)

/-- `vertexData` and `vertIndexMap`. -/
structure Verts where
  data : List (V3 × ℝ)
  map : List (Nat × Nat)

open Classical in
/-- 770-953 `DmcGetVertIndex`. -/
noncomputable def getVert (d : Nat → ℝ) (iso : ℝ) (S : Nat) (st : Verts) (cell edge : Nat) (off : V3) : Option (Nat × Verts) :=
  if Readable (S * S * S) ((corners S cell).map (Nat.cast : Nat → ℤ)) then
    let pc := pointCode (cellCode d iso S cell) edge
    let lookup := cell <<< 12 ||| pc
    match st.map.lookup lookup with
    | some i => some (i, st)
    | none =>
      let v := vert d iso S cell pc
      if Readable (S * S * S) (lightReads S cell v) then
        some (st.data.length, ⟨st.data ++ [(v + off, light d S cell v)], (lookup, st.data.length) :: st.map⟩)
      else none
  else none

/-- The axis of a lattice edge. -/
inductive Axis
  | x | y | z
deriving DecidableEq

/-- `STEP_X`, `STEP_Y`, `STEP_Z` (625-627). -/
def Axis.step (S : Nat) : Axis → Nat
  | .x => 1
  | .y => S
  | .z => S * S

/-- 655-660, 686-691, 736-741: for each of the four vertices of a quad the `EDGE` constant, what is subtracted from `cellIndex` and from
`cellOffset`. -/
def quadCells (S : Nat) : Axis → List (Nat × Nat × V3)
  | .x => [(2 ^ 0, 0, ⟨0, 0, 0⟩), (2 ^ 2, S * S, ⟨0, 0, 1⟩), (2 ^ 4, S, ⟨0, 1, 0⟩), (2 ^ 6, S + S * S, ⟨0, 1, 1⟩)]
  | .y => [(2 ^ 8, 0, ⟨0, 0, 0⟩), (2 ^ 9, 1, ⟨1, 0, 0⟩), (2 ^ 11, S * S, ⟨0, 0, 1⟩), (2 ^ 10, 1 + S * S, ⟨1, 0, 1⟩)]
  | .z => [(2 ^ 3, 0, ⟨0, 0, 0⟩), (2 ^ 7, S, ⟨0, 1, 0⟩), (2 ^ 1, 1, ⟨1, 0, 0⟩), (2 ^ 5, 1 + S, ⟨1, 1, 0⟩)]

/-- The four calls in order. -/
noncomputable def getVerts (d : Nat → ℝ) (iso : ℝ) (S : Nat) (cell : Nat) (off : V3) : List (Nat × Nat × V3) → Verts → Option (List Nat × Verts)
  | [], st => some ([], st)
  | (edge, dc, dv) :: r, st =>
    (getVert d iso S st (cell - dc) edge (off - dv)).bind fun p => (getVerts d iso S cell off r p.2).map fun q => (p.1 :: q.1, q.2)

/-- 669-674 (= 700-705, 750-755), with 662-667 (= 693-698, 743-748): the indices of the two triangles; `f` = `triFlip`, `r` = `triRotation`. -/
def triangles (q : Nat → Nat) (f r : Nat) : List Nat := [q f, q (3 - r), q (2 - f), q (3 - f), q r, q (1 + f)]

open Classical in
/-- 645-676, 678-725, 727-757: the quad of one lattice edge.  (`minAir` and `maxSolid`: `cellLevels` in Levels.lean.) -/
noncomputable def addQuad (d : Nat → ℝ) (iso : ℝ) (S : Nat) (cell : Nat) (off : V3) (ax : Axis) (st : Verts × List Nat) : Option (Verts × List Nat) :=
  if Readable (S * S * S) [(cell : ℤ), ((cell + ax.step S : Nat) : ℤ)] then
    let d0 := d cell
    let d1 := d (cell + ax.step S)
    if (d0 ≤ iso) ≠ (d1 ≤ iso) then
      (getVerts d iso S cell off (quadCells S ax) st.1).bind fun p =>
        let q (i : Nat) : Nat := p.1.getD i 0
        match p.2.data[q 0]?, p.2.data[q 1]?, p.2.data[q 2]?, p.2.data[q 3]? with
        | some v0, some v1, some v2, some v3 =>
          let r := if |v0.2 - v3.2| > |v1.2 - v2.2| then 2 else 0
          let f := if d0 < d1 then 2 else 0
          some (p.2, st.2 ++ triangles q f r)
        | _, _, _, _ => none
    else some st
  else none

/-- `for( i = 0; i < n; i++ )`. -/
def forN {σ : Type} (f : Nat → σ → Option σ) : Nat → σ → Option σ
  | 0, s => some s
  | n + 1, s => (forN f n s).bind (f n)

/-- State of the loops: vertices, indices, `cellIndex`. -/
abbrev Loop := (Verts × List Nat) × Nat

/-- 642-759: the body of the innermost loop. -/
noncomputable def cellBody (b : Build) (d : Nat → ℝ) (S z y x : Nat) (s : Loop) : Option Loop :=
  let off : V3 := ⟨((b.pos.x + x : ℤ) : ℝ), ((b.pos.y + y : ℤ) : ℝ), ((b.pos.z + z : ℤ) : ℝ)⟩
  (addQuad d b.iso S s.2 off .x s.1).bind fun s1 => (addQuad d b.iso S s.2 off .y s1).bind fun s2 =>
    (addQuad d b.iso S s.2 off .z s2).map fun s3 => (s3, s.2 + 1)

open Classical in
/-- 592-768 `BuildDmc3DMesh`: vertices and triangle indices.  Min and max of the densities are what `GenPositionArray3D` returns. -/
noncomputable def buildDmc (b : Build) : Option (List (V3 × ℝ) × List Nat) :=
  let S := b.size + 4
  let d := density b S (-2)
  if (∀ i < S * S * S, d i > b.iso) ∨ (∀ i < S * S * S, d i < b.iso) then some ([], [])
  else
    let row (z y : Nat) (s : Loop) : Option Loop := (forN (cellBody b d S z y) b.size s).map fun s => (s.1, s.2 + 1 * (S - b.size))
    let slab (z : Nat) (s : Loop) : Option Loop := (forN (row z) b.size s).map fun s => (s.1, s.2 + S * (S - b.size))
    (forN slab b.size ((⟨[], []⟩, []), (1 + S + S * S) * 2)).map fun s => (s.1.1.data, s.1.2)

end FastNoise.Mesh
