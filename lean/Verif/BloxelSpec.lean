import Verif.MeshSpec

/-! Specification vocabulary for the block mesh: exposed faces, their corners, shading. -/

namespace FastNoise.Mesh

/-- The neighbouring voxel; voxel `v` is the cube between `v` and `v + (1,1,1)`. -/
def I3.side (v : I3) : Axis → Bool → I3
  | .x, true => ⟨v.x + 1, v.y, v.z⟩
  | .x, false => ⟨v.x - 1, v.y, v.z⟩
  | .y, true => ⟨v.x, v.y + 1, v.z⟩
  | .y, false => ⟨v.x, v.y - 1, v.z⟩
  | .z, true => ⟨v.x, v.y, v.z + 1⟩
  | .z, false => ⟨v.x, v.y, v.z - 1⟩

/-- A face of a voxel: the voxel, the axis and the side. -/
abbrev VFace := I3 × Axis × Bool

/-- The voxel is solid and its neighbour on that side is air. -/
def Exposed (f : I3 → ℝ) (iso : ℝ) (j : VFace) : Prop := f j.1 ≤ iso ∧ iso < f (j.1.side j.2.1 j.2.2)

/-- The four corners of a face. -/
def IsCorner (j : VFace) (P : I3) : Prop :=
  (P.x = j.1.x ∨ P.x = j.1.x + 1) ∧ (P.y = j.1.y ∨ P.y = j.1.y + 1) ∧ (P.z = j.1.z ∨ P.z = j.1.z + 1) ∧
    match j.2.1 with
    | .x => P.x = if j.2.2 then j.1.x + 1 else j.1.x
    | .y => P.y = if j.2.2 then j.1.y + 1 else j.1.y
    | .z => P.z = if j.2.2 then j.1.z + 1 else j.1.z

/-- The voxel on the other side of point `P` along an axis. -/
def I3.across (P : I3) (e : Axis) (u : I3) : I3 :=
  match e with
  | .x => ⟨2 * P.x - 1 - u.x, u.y, u.z⟩
  | .y => ⟨u.x, 2 * P.y - 1 - u.y, u.z⟩
  | .z => ⟨u.x, u.y, 2 * P.z - 1 - u.z⟩

/-- The two other axes. -/
def Axis.others : Axis → Axis × Axis
  | .x => (.y, .z)
  | .y => (.z, .x)
  | .z => (.x, .y)

open Classical in
/-- Number of occluders (0 to 3) of corner `P` of a face: of the three voxels that touch `P` in the layer of the air voxel, those that are solid; the
diagonal one also counts if both others hide it. -/
noncomputable def occluders (f : I3 → ℝ) (iso : ℝ) (j : VFace) (P : I3) : Nat :=
  let n := j.1.side j.2.1 j.2.2
  let A := f (P.across j.2.1.others.1 n) ≤ iso
  let B := f (P.across j.2.1.others.2 n) ≤ iso
  let C := f (P.across j.2.1.others.1 (P.across j.2.1.others.2 n)) ≤ iso
  (if A then 1 else 0) + (if B then 1 else 0) + (if (A ∧ B) ∨ C then 1 else 0)

/-- Components of the light direction. -/
noncomputable def lightDir : Axis → ℝ
  | .x => 0.6
  | .y => 1
  | .z => 0.4

/-- Brightness of a face before occlusion: full for faces towards the sun direction (0.6, 1, 0.4), reduced with the depth below the iso value. -/
noncomputable def faceLight (f : I3 → ℝ) (iso : ℝ) (j : VFace) : ℝ :=
  let l := (if j.2.2 then 0.7 * lightDir j.2.1 + 0.3 else 1 - 0.7 * lightDir j.2.1) - 4 * (iso - f j.1)
  max 0.3 (l * |l|)

/-- Brightness of a face corner. -/
noncomputable def shade (f : I3 → ℝ) (iso : ℝ) (j : VFace) (P : I3) : ℝ := (1 - 0.3 * occluders f iso j P) * faceLight f iso j

/-- Triangle corners with brightness. -/
def litCorners (m : List (V3 × ℝ) × List Nat) : List (V3 × ℝ) := m.2.filterMap fun i => m.1[i]?

/-- Two triangles that make up a unit square face, seen from outside, with the specified brightness at the corners. -/
def IsFace (f : I3 → ℝ) (iso : ℝ) (j : VFace) (T : List (V3 × ℝ)) : Prop :=
  ∃ P0 P1 P2 P3 P4 P5 : I3, T = [P0, P1, P2, P3, P4, P5].map (fun P => ((⟨P.x, P.y, P.z⟩ : V3), shade f iso j P)) ∧
    (∀ P, IsCorner j P ↔ P ∈ [P0, P1, P2, P3, P4, P5]) ∧ (P0 = P4 ∧ P1 = P3 ∨ P1 = P5 ∧ P2 = P4) ∧
    let out : ℝ := if j.2.2 then 1 else -1
    facing j.2.1 ⟨P0.x, P0.y, P0.z⟩ ⟨P1.x, P1.y, P1.z⟩ ⟨P2.x, P2.y, P2.z⟩ = out ∧
    facing j.2.1 ⟨P3.x, P3.y, P3.z⟩ ⟨P4.x, P4.y, P4.z⟩ ⟨P5.x, P5.y, P5.z⟩ = out

end FastNoise.Mesh
