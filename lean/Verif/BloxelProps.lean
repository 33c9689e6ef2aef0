import Verif.BloxelClosed
import Verif.MeshProps

/-!
# C47: the block mesh preview

`BuildBloxel3DMesh` is run chunk by chunk; voxels are unit cubes at integer positions.  The theorems speak of the triangles that reach the graphics card.
-/

namespace FastNoise.Mesh

/-- **C47.** Building a block mesh never reads outside the density array, the index buffer describes triangles of existing vertices, and every triangle
corner has a brightness between 0.03 and 1. -/
theorem C47_mesh_wellformed (b : Build) : ∃ m, buildBloxel b = some m ∧ WellFormed m ∧ ∀ e ∈ litCorners m, 0.03 ≤ e.2 ∧ e.2 ≤ 1 := by
  obtain ⟨m, h1, h2, h3⟩ := buildBloxel_spec b
  refine ⟨m, h1, h2, ?_⟩
  obtain ⟨fs, e1, e2, e3⟩ := asm_faces h3
  intro e he
  rw [e1] at he
  obtain ⟨F, hF, he⟩ := List.mem_flatMap.mp he
  obtain ⟨P0, P1, P2, P3, P4, P5, hT, _⟩ := e3 F hF
  rw [hT] at he
  obtain ⟨P, _, rfl⟩ := List.mem_map.mp he
  refine shade_bounds _ _ _ _ ?_
  have : F.1 ∈ fs.map Prod.fst := List.mem_map.mpr ⟨F, hF, rfl⟩
  rw [e2, List.mem_filter] at this
  exact (by simpa using this.2 : Exposed (field b) b.iso F.1).1

/-- **C47.** The mesh of a chunk consists of exactly one unit square for each face between a solid voxel of the chunk and an air voxel; it is seen from
the air side and shaded by the light direction, the depth and the solid voxels around each corner. -/
theorem C47_one_face_per_exposed {b : Build} {m : List (V3 × ℝ) × List Nat} (h : buildBloxel b = some m) :
    ∃ faces : List (VFace × List (V3 × ℝ)), litCorners m = faces.flatMap Prod.snd ∧ (faces.map Prod.fst).Nodup ∧
      (∀ j, j ∈ faces.map Prod.fst ↔ InChunk b.size b.pos j.1 ∧ Exposed (field b) b.iso j) ∧
      ∀ F ∈ faces, IsFace (field b) b.iso F.1 F.2 := by
  classical
  obtain ⟨m', h1, _, h3⟩ := buildBloxel_spec b
  rw [h] at h1
  cases h1
  obtain ⟨fs, e1, e2, e3⟩ := asm_faces h3
  refine ⟨fs, e1, ?_, ?_, e3⟩
  · rw [e2]; exact (bjobs_nodup _ _).filter _
  · intro j
    rw [e2, List.mem_filter, List.mem_flatMap]
    simp only [mem_scan, mem_voxelJobs, decide_eq_true_eq]
    constructor
    · rintro ⟨⟨v, hv, rfl⟩, hj⟩; exact ⟨hv, hj⟩
    · rintro ⟨hv, hj⟩; exact ⟨⟨_, hv, rfl⟩, hj⟩

theorem ball_exposed (j : VFace) : Exposed (field ball) ball.iso j ↔ j.1 = ⟨0, 0, 0⟩ := by
  unfold Exposed
  rw [ball_solid, ← not_le, ball_solid]
  constructor
  · exact fun h => h.1
  · intro h
    refine ⟨h, ?_⟩
    obtain ⟨v, a, s⟩ := j
    simp only at h
    subst h
    cases a <;> cases s <;> simp [I3.side]

/-- Non-vacuity: the ball is one voxel with six faces, so 36 triangle corners. -/
example : ∃ m, buildBloxel ball = some m ∧ (litCorners m).length = 36 := by
  obtain ⟨m, h, _, _⟩ := C47_mesh_wellformed ball
  refine ⟨m, h, ?_⟩
  obtain ⟨fs, e1, e2, e3, e4⟩ := C47_one_face_per_exposed h
  have hlen : ∀ F ∈ fs, F.2.length = 6 := by
    intro F hF
    obtain ⟨P0, P1, P2, P3, P4, P5, hT, _⟩ := e4 F hF
    rw [hT]; rfl
  have hperm : (fs.map Prod.fst).Perm (voxelJobs ⟨0, 0, 0⟩) := by
    refine (List.perm_ext_iff_of_nodup e2 (by simp [voxelJobs])).mpr fun j => ?_
    rw [e3, ball_exposed, mem_voxelJobs]
    constructor
    · exact fun h => h.2
    · intro h; exact ⟨by rw [h]; simp [InChunk, ball], h⟩
  have h6 : fs.length = 6 := by simpa [voxelJobs] using hperm.length_eq
  rw [e1, List.length_flatMap, List.map_congr_left hlen]
  simp [h6]

open Classical in
/-- **C47.** No cracks, locally: given chunks that do not overlap and their meshes, take a position `p` such that every solid voxel near `p` with an
exposed face lies in one of the chunks.  Then every triangle side from `p` to some `q` is matched by one from `q` to `p`. -/
theorem C47_no_cracks (b : Build) {chunks : List I3} {meshes : List (List (V3 × ℝ) × List Nat)} (hapart : Apart b.size chunks)
    (hbuilt : List.Forall₂ (fun c m => buildBloxel { b with pos := c } = some m) chunks meshes) (p q : V3)
    (hnear : ∀ j : VFace, Exposed (field b) b.iso j → Close j.1 p → ∃ c ∈ chunks, InChunk b.size c j.1) :
    (worldEdges meshes).count (p, q) = (worldEdges meshes).count (q, p) :=
  bworld_balanced b hapart hbuilt p hnear q

/-- **C47.** If the chunks contain all solid voxels that touch air, their block meshes together form a closed, consistently oriented surface. -/
theorem C47_closed (b : Build) {chunks : List I3} {meshes : List (List (V3 × ℝ) × List Nat)} (hapart : Apart b.size chunks)
    (hbuilt : List.Forall₂ (fun c m => buildBloxel { b with pos := c } = some m) chunks meshes)
    (hall : ∀ j : VFace, Exposed (field b) b.iso j → ∃ c ∈ chunks, InChunk b.size c j.1) : Closed (worldEdges meshes) :=
  closed_of_count fun p q => bworld_balanced b hapart hbuilt p (fun j hj _ => hall j hj) q

/-- Non-vacuity: the ball in two chunks, one of them empty. -/
example : ∃ meshes, List.Forall₂ (fun c m => buildBloxel { ball with pos := c } = some m) [⟨0, 0, 0⟩, ⟨1, 0, 0⟩] meshes ∧ Closed (worldEdges meshes) := by
  obtain ⟨m1, h1, _⟩ := C47_mesh_wellformed { ball with pos := ⟨0, 0, 0⟩ }
  obtain ⟨m2, h2, _⟩ := C47_mesh_wellformed { ball with pos := ⟨1, 0, 0⟩ }
  have hf : List.Forall₂ (fun c m => buildBloxel { ball with pos := c } = some m) [⟨0, 0, 0⟩, ⟨1, 0, 0⟩] [m1, m2] := .cons h1 (.cons h2 .nil)
  refine ⟨_, hf, C47_closed ball ?_ hf ?_⟩
  · unfold Apart
    simp only [List.pairwise_cons, List.mem_cons, List.not_mem_nil, or_false, forall_eq, List.Pairwise.nil, and_true, InChunk, ball]
    exact ⟨fun v => by omega, by simp⟩
  · intro j hj
    rw [ball_exposed] at hj
    exact ⟨⟨0, 0, 0⟩, by simp, by rw [hj]; simp [InChunk, ball]⟩

end FastNoise.Mesh
