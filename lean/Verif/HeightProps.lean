import Verif.HeightClosed

/-!
# C48: the height map preview

`BuildHeightMap2DMesh` is run chunk by chunk.  The theorems speak of the triangles that reach the graphics card.
-/

namespace FastNoise.Mesh

/-- **C48.** Building a height map never reads outside the density array and the index buffer describes triangles of existing vertices. -/
theorem C48_mesh_wellformed (b : HBuild) : ∃ m, buildHeight b = some m ∧ WellFormed m := by
  obtain ⟨m, h1, h2, _⟩ := buildHeight_spec b
  exact ⟨m, h1, h2⟩

theorem asm_patches {b : HBuild} {l : List (ℤ × ℤ)} {T : List (V3 × ℝ)} (h : Asm (PatchAt b) l T) :
    ∃ ps : List ((ℤ × ℤ) × List (V3 × ℝ)), T = ps.flatMap Prod.snd ∧ ps.map Prod.fst = l ∧ ∀ P ∈ ps, IsPatch b P.1 P.2 := by
  induction h with
  | nil => exact ⟨[], rfl, rfl, by simp⟩
  | @snoc l T u T' _ hq ih =>
    obtain ⟨ps, h1, h2, h3⟩ := ih
    refine ⟨ps ++ [(u, T')], by simp [h1], by simp [h2], ?_⟩
    intro P hP
    rcases List.mem_append.mp hP with hP | hP
    · exact h3 P hP
    · rw [List.mem_singleton] at hP; rw [hP]; exact hq.1

/-- **C48.** The mesh of a chunk consists of exactly one patch for each lattice square of the chunk: two triangles through the terrain points above its
corners, split along the diagonal with the larger sum of heights (in absolute value), with a brightness in [0.16, 1] that on a plane is given by its normal. -/
theorem C48_one_patch_per_square {b : HBuild} {m : List (V3 × ℝ) × List Nat} (h : buildHeight b = some m) :
    ∃ patches : List ((ℤ × ℤ) × List (V3 × ℝ)), litCorners m = patches.flatMap Prod.snd ∧ (patches.map Prod.fst).Nodup ∧
      (∀ u, u ∈ patches.map Prod.fst ↔ InTile b.size (b.posX, b.posZ) u) ∧ ∀ P ∈ patches, IsPatch b P.1 P.2 := by
  obtain ⟨m', h1, _, h3⟩ := buildHeight_spec b
  rw [h] at h1
  cases h1
  obtain ⟨ps, e1, e2, e3⟩ := asm_patches h3
  exact ⟨ps, e1, by rw [e2]; exact htile_nodup b, fun u => by rw [e2, mem_htile], e3⟩

/-- **C48.** Both triangles of a patch are seen from above; each covers half of the square (the number is twice the area of the projection). -/
theorem C48_faces_up {b : HBuild} {u : ℤ × ℤ} {T : List (V3 × ℝ)} (h : IsPatch b u T) :
    ∃ t0 t1 t2 t3 t4 t5 : V3, T.map Prod.fst = [t0, t1, t2, t3, t4, t5] ∧ facing .y t0 t1 t2 = 1 ∧ facing .y t3 t4 t5 = 1 := by
  obtain ⟨l, (⟨h, _⟩ | ⟨h, _⟩), _⟩ := h <;>
  · rw [h]
    refine ⟨_, _, _, _, _, _, rfl, ?_, ?_⟩ <;> (simp only [facing, terrain]; push_cast; ring)

/-- A ramp in chunks of size 2. -/
noncomputable def ramp : HBuild := ⟨2, 4, -2, fun x z => x - z, 0.5⟩

/-- Non-vacuity: the ramp's chunk has four patches; one of them spelled out, with the brightness of the slope (0.5, -0.5). -/
example : ∃ m, buildHeight ramp = some m ∧ ∃ T l, IsPatch ramp (5, -1) T ∧ T = [(⟨5, 3, -1⟩, l), (⟨6, 3, 0⟩, l), (⟨6, 3.5, -1⟩, l), (⟨6, 3, 0⟩, l), (⟨5, 3, -1⟩, l), (⟨5, 2.5, 0⟩, l)] ∧
    l = 1.13 / 1.5 := by
  obtain ⟨m, h, _⟩ := C48_mesh_wellformed ramp
  refine ⟨m, h, ?_⟩
  obtain ⟨ps, e1, e2, e3, e4⟩ := C48_one_patch_per_square h
  obtain ⟨P, hP, hu⟩ := List.mem_map.mp ((e3 (5, -1)).mpr (by simp [InTile, ramp]))
  have hp := e4 P hP
  rw [hu] at hp
  refine ⟨P.2, ?_⟩
  have hp' := hp
  obtain ⟨l, hT, _, _, hl⟩ := hp'
  refine ⟨l, hp, ?_, ?_⟩
  · rcases hT with ⟨hT, _⟩ | ⟨_, hT⟩
    · rw [hT]
      simp only [terrain, ramp, List.map_cons, List.map_nil]
      norm_num
    · exfalso
      simp only [terrain, ramp] at hT
      norm_num at hT
  · rw [hl 0.5 (-0.5) (by simp only [terrain, ramp]; norm_num) (by simp only [terrain, ramp]; norm_num) (by simp only [terrain, ramp]; norm_num)]
    norm_num

open Classical in
/-- **C48.** No cracks: given chunks that do not overlap and their meshes, take a position `p` such that all lattice squares around `p` belong to the chunks.
Then every triangle side from `p` to some `q` is matched by one from `q` to `p`, whichever chunks the triangles come from. -/
theorem C48_no_cracks (b : HBuild) {chunks : List (ℤ × ℤ)} {meshes : List (List (V3 × ℝ) × List Nat)} (hapart : TilesApart b.size chunks)
    (hbuilt : List.Forall₂ (fun c m => buildHeight { b with posX := c.1, posZ := c.2 } = some m) chunks meshes) (p q : V3)
    (hnear : ∀ u : ℤ × ℤ, |(u.1 : ℝ) - p.x| ≤ 1 → |(u.2 : ℝ) - p.z| ≤ 1 → ∃ c ∈ chunks, InTile b.size c u) :
    (worldEdges meshes).count (p, q) = (worldEdges meshes).count (q, p) :=
  hworld_balanced b hapart hbuilt p hnear q

/-- Non-vacuity: four chunks of size 2 that meet at the origin. -/
example : ∃ meshes, List.Forall₂ (fun c m => buildHeight { ramp with posX := c.1, posZ := c.2 } = some m) [(0, 0), (-2, 0), (0, -2), (-2, -2)] meshes ∧
    ∀ q, (open Classical in (worldEdges meshes).count (⟨0, 0, 0⟩, q)) = (open Classical in (worldEdges meshes).count (q, ⟨0, 0, 0⟩)) := by
  have hb : ∀ c : ℤ × ℤ, ∃ m, buildHeight { ramp with posX := c.1, posZ := c.2 } = some m := fun c =>
    (C48_mesh_wellformed _).imp fun m h => h.1
  obtain ⟨m1, h1⟩ := hb (0, 0)
  obtain ⟨m2, h2⟩ := hb (-2, 0)
  obtain ⟨m3, h3⟩ := hb (0, -2)
  obtain ⟨m4, h4⟩ := hb (-2, -2)
  have hf : List.Forall₂ (fun c m => buildHeight { ramp with posX := c.1, posZ := c.2 } = some m) [(0, 0), (-2, 0), (0, -2), (-2, -2)] [m1, m2, m3, m4] :=
    .cons h1 (.cons h2 (.cons h3 (.cons h4 .nil)))
  refine ⟨_, hf, fun q => C48_no_cracks ramp ?_ hf _ q ?_⟩
  · unfold TilesApart
    simp only [List.pairwise_cons, List.mem_cons, List.not_mem_nil, or_false, forall_eq_or_imp, forall_eq, List.Pairwise.nil, and_true, InTile, ramp]
    refine ⟨⟨fun u => ?_, fun u => ?_, fun u => ?_⟩, ⟨fun u => ?_, fun u => ?_⟩, fun u => ?_, by simp⟩ <;> omega
  · intro u hx hz
    simp only [sub_zero] at hx hz
    have hx' : |u.1| ≤ 1 := by exact_mod_cast hx
    have hz' : |u.2| ≤ 1 := by exact_mod_cast hz
    rw [abs_le] at hx' hz'
    simp only [List.mem_cons, List.not_mem_nil, or_false, exists_eq_or_imp, exists_eq_left, InTile, ramp]
    omega

end FastNoise.Mesh
