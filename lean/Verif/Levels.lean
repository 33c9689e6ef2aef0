import Verif.Bloxel

/-!
# "Min Air Y : Max Solid Y" of the mesh preview (tools/NodeEditor/MeshNoisePreview.cpp:123-124, 277-279, 252, 457-467, 494, 536, 605-615, 707-724)

The two numbers are computed in the same loops that build the meshes (`buildBloxel`, `buildDmc`); here the loops are repeated with the two variables.
Infinite values (nothing found) are `none`.
-/

namespace FastNoise.Mesh

/-- `minAir` and `maxSolid`. -/
structure Levels where
  air : Option ℝ
  solid : Option ℝ

/-- `std::min( minAir, y )` (536). -/
noncomputable def lower (o : Option ℝ) (y : ℝ) : Option ℝ := some (match o with | none => y | some m => min m y)
/-- `std::max( maxSolid, y )` (494). -/
noncomputable def raise (o : Option ℝ) (y : ℝ) : Option ℝ := some (match o with | none => y | some m => max m y)

open Classical in
/-- 488-539: what the innermost loop of `BuildBloxel3DMesh` does to the two variables; the second component is `noiseIdx`. -/
noncomputable def levelBody (b : Build) (d : Nat → ℝ) (S y : Nat) (s : Levels × ℤ) : Option (Levels × ℤ) :=
  if Readable (S * S * S) [s.2] then
    let yf : ℝ := y + (b.pos.y : ℝ)
    some (if at' d s.2 ≤ b.iso then { s.1 with solid := raise s.1.solid yf } else { s.1 with air := lower s.1.air yf }, s.2 + 1)
  else none

open Classical in
/-- 457-546 of `BuildBloxel3DMesh`. -/
noncomputable def bloxelLevels (b : Build) : Option Levels :=
  let S := b.size + 2
  let d := density b S (-1)
  if ∀ i < S * S * S, d i > b.iso then some ⟨some b.pos.y, none⟩
  else if ∀ i < S * S * S, d i < b.iso then some ⟨none, some (b.pos.y - 1 + b.size)⟩
  else
    let row (y : Nat) (s : Levels × ℤ) : Option (Levels × ℤ) := (forN (fun _ => levelBody b d S y) b.size s).map fun s => (s.1, s.2 + 1 * 2)
    let slab (_z : Nat) (s : Levels × ℤ) : Option (Levels × ℤ) := (forN row b.size s).map fun s => (s.1, s.2 + S * 2)
    (forN slab b.size (⟨none, none⟩, 1 + S + S * S)).map fun s => s.1

/-- 707-724: the heights of the quad just added.  The code reads the four vertices; here they are read through the six indices that were appended, which name
the same four vertices. -/
noncomputable def newHeights (old new : Verts × List Nat) : List ℝ :=
  ((cornersOf (new.1.data, new.2)).drop (cornersOf (old.1.data, old.2)).length).map V3.y

open Classical in
/-- 642-759: the body of the innermost loop of `BuildDmc3DMesh` with the two variables. -/
noncomputable def cellLevels (b : Build) (d : Nat → ℝ) (S z y x : Nat) (s : Loop × Levels) : Option (Loop × Levels) :=
  let off : V3 := ⟨((b.pos.x + x : ℤ) : ℝ), ((b.pos.y + y : ℤ) : ℝ), ((b.pos.z + z : ℤ) : ℝ)⟩
  (addQuad d b.iso S s.1.2 off .x s.1.1).bind fun s1 => (addQuad d b.iso S s.1.2 off .y s1).bind fun s2 =>
    (addQuad d b.iso S s.1.2 off .z s2).map fun s3 =>
      ((s3, s.1.2 + 1),
        if d s.1.2 ≤ b.iso then { s.2 with solid := (newHeights s1 s2).foldl raise s.2.solid }
        else { s.2 with air := (newHeights s1 s2).foldl lower s.2.air })

open Classical in
/-- 605-767 of `BuildDmc3DMesh`. -/
noncomputable def dmcLevels (b : Build) : Option Levels :=
  let S := b.size + 4
  let d := density b S (-2)
  if ∀ i < S * S * S, d i > b.iso then some ⟨some b.pos.y, none⟩
  else if ∀ i < S * S * S, d i < b.iso then some ⟨none, some (b.pos.y - 1 + b.size)⟩
  else
    let row (z y : Nat) (s : Loop × Levels) : Option (Loop × Levels) :=
      (forN (cellLevels b d S z y) b.size s).map fun s => ((s.1.1, s.1.2 + 1 * (S - b.size)), s.2)
    let slab (z : Nat) (s : Loop × Levels) : Option (Loop × Levels) :=
      (forN (row z) b.size s).map fun s => ((s.1.1, s.1.2 + S * (S - b.size)), s.2)
    (forN slab b.size (((⟨[], []⟩, []), (1 + S + S * S) * 2), ⟨none, none⟩)).map fun s => s.2

/-- 278-279: the readout after one more mesh has arrived. -/
noncomputable def joinLevels (a c : Levels) : Levels :=
  ⟨match c.air with | none => a.air | some y => lower a.air y, match c.solid with | none => a.solid | some y => raise a.solid y⟩

/-- 123-124, 275-283: the readout after the meshes at the given positions have arrived; `levels` is `bloxelLevels` or `dmcLevels`.  Unloading a chunk (299-310)
does not change it. -/
noncomputable def readout (levels : Build → Option Levels) (b : Build) (chunks : List I3) : Option Levels :=
  chunks.foldl (fun o c => o.bind fun a => (levels { b with pos := c }).map (joinLevels a)) (some ⟨none, none⟩)

end FastNoise.Mesh
