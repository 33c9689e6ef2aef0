import Verif.Bloxel
import Verif.Height

/-!
# Which chunks of the mesh preview are drawn: `MeshNoisePreview::Draw`, `UpdateChunkQueues` (tools/NodeEditor/MeshNoisePreview.cpp:161-197, 255-311)

`float` is modelled by the reals.  The frustum test is a function of the Magnum library, which is not part of the repository; `rangeFrustum` transcribes it.
-/

namespace FastNoise.Mesh

/-- `Magnum::Range3D`. -/
structure Box where
  lo : V3
  hi : V3

/-- A plane of a frustum (`Vector4`): the points with `n · p + w ≥ 0` are inside. -/
structure Plane where
  n : V3
  w : ℝ

/-- `Math::dot`. -/
noncomputable def dot (a b : V3) : ℝ := a.x * b.x + a.y * b.y + a.z * b.z

/-- Magnum's `Math::Intersection::rangeFrustum` (external): with `center = min + max` and `extent = max - min`, false as soon as a plane has
`dot( center, n ) + dot( extent, abs( n ) ) < -2 w`. -/
def rangeFrustum (B : Box) (F : List Plane) : Prop :=
  ∀ P ∈ F, ¬ dot (B.lo + B.hi) P.n + dot (B.hi - B.lo) ⟨|P.n.x|, |P.n.y|, |P.n.z|⟩ < -2 * P.w

/-- `MeshType` (MeshNoisePreview.h:34-40). -/
inductive MeshKind
  | blocks | smooth | heights

/-- What the preview shows: `Chunk::BuildData` (MeshNoisePreview.h:130-141) without the position.  All of it is fixed between two calls of `ReGenerate`
(112-137, called at 238-242 for every edit). -/
structure View where
  kind : MeshKind
  size : Nat
  iso : ℝ
  swapYZ : Bool
  gen3 : ℝ → ℝ → ℝ → ℝ
  gen2 : ℝ → ℝ → ℝ
  mult : ℝ

/-- The fields used by the 3D meshes. -/
noncomputable def View.build (v : View) (pos : I3) : Build := ⟨v.size, pos, v.iso, v.gen3, v.swapYZ⟩
/-- The fields used by the height map. -/
noncomputable def View.hbuild (v : View) (pos : I3) : HBuild := ⟨v.size, pos.x, pos.z, v.gen2, v.mult⟩

/-- 417-442 `BuildMeshData`. -/
noncomputable def buildMesh (v : View) (pos : I3) : Option (List (V3 × ℝ) × List Nat) :=
  match v.kind with
  | .blocks => buildBloxel (v.build pos)
  | .smooth => buildDmc (v.build pos)
  | .heights => buildHeight (v.hbuild pos)

/-- The values of the density array a mesh is built from (450-456, 598-604, 960-962). -/
def densities (v : View) (pos : I3) : Set ℝ :=
  match v.kind with
  | .blocks => { r | ∃ i < (v.size + 2) * (v.size + 2) * (v.size + 2), r = density (v.build pos) (v.size + 2) (-1) i }
  | .smooth => { r | ∃ i < (v.size + 4) * (v.size + 4) * (v.size + 4), r = density (v.build pos) (v.size + 4) (-2) i }
  | .heights => { r | ∃ i < (v.size + 1) * (v.size + 1), r = hdensity (v.hbuild pos) (v.size + 1) i }

/-- `mMinMax << meshData.minMax` (277; Generator.h:99-104); `none` is the initial `{ +inf, -inf }`. -/
noncomputable def merge (mm : Option (ℝ × ℝ)) (x : ℝ × ℝ) : Option (ℝ × ℝ) :=
  match mm with
  | none => some x
  | some p => some (min p.1 x.1, max p.2 x.2)

/-- A chunk in `mChunks`: `GetPos()` and the mesh. -/
abbrev Loaded := I3 × (List (V3 × ℝ) × List Nat)

/-- The histories of `mMinMax` and `mChunks` since `ReGenerate`. -/
inductive Shown (v : View) : Option (ℝ × ℝ) → List Loaded → Prop
  /-- 122-127 -/
  | start : Shown v none []
  /-- 275-284: a mesh of the current version arrives (the queue accepts no other), with the least and the greatest of its densities. -/
  | pop {mm cs pos m lo hi} : Shown v mm cs → buildMesh v pos = some m → IsLeast (densities v pos) lo → IsGreatest (densities v pos) hi →
      Shown v (merge mm (lo, hi)) (cs ++ [(pos, m)])
  /-- 288-311: the chunks are sorted and some are unloaded; `mMinMax` stays. -/
  | keep {mm cs cs'} : Shown v mm cs → cs' ⊆ cs → Shown v mm cs'

/-- 176-183: the box of a chunk. -/
noncomputable def chunkBox (v : View) (mm : Option (ℝ × ℝ)) (pos : I3) : Box :=
  let lo : V3 := ⟨pos.x, pos.y, pos.z⟩
  let hi : V3 := ⟨pos.x + (v.size + 1), pos.y + (v.size + 1), pos.z + (v.size + 1)⟩
  match v.kind with
  | .heights =>
    let p := mm.getD (0, 0)
    ⟨⟨lo.x, p.1 * v.mult, lo.z⟩, ⟨hi.x, p.2 * v.mult, hi.z⟩⟩
  | _ => ⟨lo, hi⟩

/-- 167-191: the chunks that are drawn.  (`GetMesh` is null for a mesh without triangles: nothing to draw.) -/
noncomputable def Drawn (v : View) (mm : Option (ℝ × ℝ)) (c : Loaded) (F : List Plane) : Prop :=
  rangeFrustum (chunkBox v mm c.1) F

end FastNoise.Mesh
