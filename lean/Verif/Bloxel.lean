import Verif.MeshSpec

/-!
# The block mesh of the preview: `BuildBloxel3DMesh`, `BloxelAddQuadAO` (tools/NodeEditor/MeshNoisePreview.cpp:444-590)
-/

namespace FastNoise.Mesh

/-- An array element by `int32_t` index. -/
noncomputable def at' (d : Nat → ℝ) (i : ℤ) : ℝ := d i.toNat

/-- `AMBIENT_LIGHT`, `AO_STRENGTH` (MeshNoisePreview.h:159-160). -/
noncomputable def ambient : ℝ := 0.3
/-- `aoAdjust` (564). -/
noncomputable def aoAdjust : ℝ := 0.9 / 3
/-- `SUN` (472): `LIGHT_DIR * (1 - AMBIENT_LIGHT)`. -/
noncomputable def sun : V3 := ⟨0.6 * (1 - ambient), 1 * (1 - ambient), 0.4 * (1 - ambient)⟩

/-- `uint8_t` from a comparison. -/
def bit (b : Bool) : Nat := if b then 1 else 0

open Classical in
/-- 549-590 `BloxelAddQuadAO`. -/
noncomputable def addFace (d : Nat → ℝ) (len : Nat) (iso : ℝ) (idx fo oa ob : ℤ) (light0 : ℝ) (pos00 pos01 pos11 pos10 : V3)
    (st : List (V3 × ℝ) × List Nat) : Option (List (V3 × ℝ) × List Nat) :=
  let f := idx + fo
  if Readable len [f - oa, f + oa, f - ob, f + ob, f - oa - ob, f - oa + ob, f + oa - ob, f + oa + ob, idx] then
    let sideA0 : Bool := at' d (f - oa) ≤ iso
    let sideA1 : Bool := at' d (f + oa) ≤ iso
    let sideB0 : Bool := at' d (f - ob) ≤ iso
    let sideB1 : Bool := at' d (f + ob) ≤ iso
    let corner00 := (sideA0 && sideB0) || decide (at' d (f - oa - ob) ≤ iso)
    let corner01 := (sideA0 && sideB1) || decide (at' d (f - oa + ob) ≤ iso)
    let corner10 := (sideA1 && sideB0) || decide (at' d (f + oa - ob) ≤ iso)
    let corner11 := (sideA1 && sideB1) || decide (at' d (f + oa + ob) ≤ iso)
    let ao00 : ℝ := (bit sideA0 + bit sideB0 + bit corner00 : Nat) * aoAdjust
    let ao01 : ℝ := (bit sideA1 + bit sideB0 + bit corner10 : Nat) * aoAdjust
    let ao10 : ℝ := (bit sideA0 + bit sideB1 + bit corner01 : Nat) * aoAdjust
    let ao11 : ℝ := (bit sideA1 + bit sideB1 + bit corner11 : Nat) * aoAdjust
    let shift := (iso - at' d idx) * 4
    let light1 := light0 - shift
    let light2 := light1 * |light1|
    let light := max ambient light2
    let n := st.1.length
    let r := if ao00 + ao11 > ao01 + ao10 then 2 else 0
    some (st.1 ++ [(pos00, (1 - ao00) * light), (pos01, (1 - ao01) * light), (pos10, (1 - ao10) * light), (pos11, (1 - ao11) * light)],
      st.2 ++ [n, n + 3 - r, n + 2, n + 3, n + r, n + 1])
  else none

/-- A call of `BloxelAddQuadAO` (496-532): offset of the neighbour that must be air, `offsetA`, `offsetB`, light, and the four positions relative to
`(xf, yf, zf)`. -/
structure Face where
  facing : ℤ
  offA : ℤ
  offB : ℤ
  light : ℝ
  p00 : V3
  p01 : V3
  p11 : V3
  p10 : V3

/-- 496-532, in order: right, left, up, down, forward, back. -/
noncomputable def faces (S : ℤ) : List Face :=
  let X : ℤ := 1
  let Y : ℤ := S
  let Z : ℤ := S * S
  [⟨X, Y, Z, sun.x + ambient, ⟨1, 0, 0⟩, ⟨1, 1, 0⟩, ⟨1, 1, 1⟩, ⟨1, 0, 1⟩⟩,
   ⟨-X, -Y, Z, 1 - sun.x, ⟨0, 1, 0⟩, ⟨0, 0, 0⟩, ⟨0, 0, 1⟩, ⟨0, 1, 1⟩⟩,
   ⟨Y, Z, X, sun.y + ambient, ⟨0, 1, 0⟩, ⟨0, 1, 1⟩, ⟨1, 1, 1⟩, ⟨1, 1, 0⟩⟩,
   ⟨-Y, -Z, X, 1 - sun.y, ⟨0, 0, 1⟩, ⟨0, 0, 0⟩, ⟨1, 0, 0⟩, ⟨1, 0, 1⟩⟩,
   ⟨Z, X, Y, sun.z + ambient, ⟨0, 0, 1⟩, ⟨1, 0, 1⟩, ⟨1, 1, 1⟩, ⟨0, 1, 1⟩⟩,
   ⟨-Z, -X, Y, 1 - sun.z, ⟨1, 0, 0⟩, ⟨0, 0, 0⟩, ⟨0, 1, 0⟩, ⟨1, 1, 0⟩⟩]

open Classical in
/-- One of the six tests. -/
noncomputable def tryFace (d : Nat → ℝ) (len : Nat) (iso : ℝ) (idx : ℤ) (base : V3) (F : Face) (st : List (V3 × ℝ) × List Nat) :
    Option (List (V3 × ℝ) × List Nat) :=
  if Readable len [idx + F.facing] then
    if at' d (idx + F.facing) > iso then
      addFace d len iso idx F.facing F.offA F.offB F.light (base + F.p00) (base + F.p01) (base + F.p11) (base + F.p10) st
    else some st
  else none

/-- The six tests in order. -/
noncomputable def tryFaces (d : Nat → ℝ) (len : Nat) (iso : ℝ) (idx : ℤ) (base : V3) : List Face → List (V3 × ℝ) × List Nat → Option (List (V3 × ℝ) × List Nat)
  | [], st => some st
  | F :: r, st => (tryFace d len iso idx base F st).bind (tryFaces d len iso idx base r)

/-- State of the loops: mesh and `noiseIdx`. -/
abbrev BLoop := (List (V3 × ℝ) × List Nat) × ℤ

open Classical in
/-- 488-540: the body of the innermost loop (`minAir`, `maxSolid`: `levelBody` in Levels.lean). -/
noncomputable def voxelBody (b : Build) (d : Nat → ℝ) (S : Nat) (z y x : Nat) (s : BLoop) : Option BLoop :=
  if Readable (S * S * S) [s.2] then
    if at' d s.2 ≤ b.iso then
      (tryFaces d (S * S * S) b.iso s.2 ⟨x + (b.pos.x : ℝ), y + (b.pos.y : ℝ), z + (b.pos.z : ℝ)⟩ (faces S) s.1).map fun m => (m, s.2 + 1)
    else some (s.1, s.2 + 1)
  else none

open Classical in
/-- 444-547 `BuildBloxel3DMesh`. -/
noncomputable def buildBloxel (b : Build) : Option (List (V3 × ℝ) × List Nat) :=
  let S := b.size + 2
  let d := density b S (-1)
  if (∀ i < S * S * S, d i > b.iso) ∨ (∀ i < S * S * S, d i < b.iso) then some ([], [])
  else
    let row (z y : Nat) (s : BLoop) : Option BLoop := (forN (voxelBody b d S z y) b.size s).map fun s => (s.1, s.2 + 1 * 2)
    let slab (z : Nat) (s : BLoop) : Option BLoop := (forN (row z) b.size s).map fun s => (s.1, s.2 + S * 2)
    (forN slab b.size (([], []), 1 + S + S * S)).map fun s => s.1

end FastNoise.Mesh
