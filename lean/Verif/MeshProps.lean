import Verif.MeshFacing
import Verif.MeshShade

/-!
# C46: the 3D mesh preview is a closed surface

`BuildDmc3DMesh` is run chunk by chunk.  The theorems speak of the triangles that reach the graphics card: positions of triangle corners, in the order of
the index buffer.
-/

namespace FastNoise.Mesh

/-- A ball around the origin that contains one lattice point, in chunks of size 1. -/
noncomputable def ball : Build := ⟨1, ⟨0, 0, 0⟩, 1 / 2, fun x y z => x ^ 2 + y ^ 2 + z ^ 2, false⟩

theorem ball_solid (v : I3) : field ball v ≤ ball.iso ↔ v = ⟨0, 0, 0⟩ := by
  obtain ⟨x, y, z⟩ := v
  simp only [field, ball, Bool.false_eq_true, if_false, I3.mk.injEq]
  constructor
  · intro h
    have h1 : ((x ^ 2 + y ^ 2 + z ^ 2 : ℤ) : ℝ) < ((1 : ℤ) : ℝ) := by push_cast; linarith
    have h2 : x ^ 2 + y ^ 2 + z ^ 2 < 1 := by exact_mod_cast h1
    have hx : x ^ 2 = 0 := by nlinarith [sq_nonneg x, sq_nonneg y, sq_nonneg z]
    have hy : y ^ 2 = 0 := by nlinarith [sq_nonneg x, sq_nonneg y, sq_nonneg z]
    have hz : z ^ 2 = 0 := by nlinarith [sq_nonneg x, sq_nonneg y, sq_nonneg z]
    exact ⟨pow_eq_zero_iff two_ne_zero |>.mp hx, pow_eq_zero_iff two_ne_zero |>.mp hy, pow_eq_zero_iff two_ne_zero |>.mp hz⟩
  · rintro ⟨rfl, rfl, rfl⟩; norm_num

/-- The chunks in which the surface of the ball starts. -/
def ballChunks : List I3 := [⟨0, 0, 0⟩, ⟨-1, 0, 0⟩, ⟨0, -1, 0⟩, ⟨0, 0, -1⟩]

theorem ball_cover (v : I3) (a : Axis) (h : Crosses (field ball) ball.iso v a) : ∃ c ∈ ballChunks, InChunk ball.size c v := by
  unfold Crosses at h
  rw [ball_solid, ball_solid] at h
  have hin : ∀ u : I3, InChunk ball.size u u := by intro u; simp [InChunk, ball]
  have hv : v = ⟨0, 0, 0⟩ ∨ v.next a = ⟨0, 0, 0⟩ := by tauto
  rcases hv with rfl | hv
  · exact ⟨_, by simp [ballChunks], hin _⟩
  · refine ⟨v, ?_, hin v⟩
    obtain ⟨x, y, z⟩ := v
    cases a <;> (simp only [I3.next, I3.mk.injEq] at hv; obtain ⟨h1, h2, h3⟩ := hv; simp [ballChunks]; omega)

theorem ball_apart : Apart ball.size ballChunks := by
  unfold Apart ballChunks
  simp only [List.pairwise_cons, List.mem_cons, List.not_mem_nil, or_false, forall_eq_or_imp, forall_eq, List.Pairwise.nil, and_true]
  simp only [InChunk, ball]
  refine ⟨⟨?_, ?_, ?_⟩, ⟨?_, ?_⟩, ?_, ?_⟩ <;> (try intro v) <;> (try omega) <;> exact fun h => h.elim

/-- **C46.** Building a mesh never reads outside the density array or the vertex array, the index buffer describes triangles of existing vertices, and
every vertex has a brightness between 0.09 (the squared ambient light) and 1. -/
theorem C46_mesh_wellformed (b : Build) : ∃ m, buildDmc b = some m ∧ WellFormed m ∧ ∀ e ∈ m.1, 0.09 ≤ e.2 ∧ e.2 ≤ 1 := by
  obtain ⟨m, h1, h2, _, h4⟩ := buildDmc_spec b
  refine ⟨m, h1, h2, fun e he => ?_⟩
  obtain ⟨x, y, z, k, _, _, _, hl⟩ := h4 e he
  rw [hl]; exact light_bounds _ _ _ _

/-- **C46.** The mesh of a chunk consists of exactly one quad for each lattice edge that starts in the chunk and has one end in the air and one in the
solid; the quad winds around that edge and faces the air. -/
theorem C46_one_quad_per_crossing {b : Build} {m : List (V3 × ℝ) × List Nat} (h : buildDmc b = some m) :
    ∃ quads : List ((I3 × Axis) × List V3), cornersOf m = quads.flatMap Prod.snd ∧ (quads.map Prod.fst).Nodup ∧
      (∀ v a, (v, a) ∈ quads.map Prod.fst ↔ InChunk b.size b.pos v ∧ Crosses (field b) b.iso v a) ∧
      ∀ Q ∈ quads, IsQuad (field b) b.iso Q.1.1 Q.1.2 Q.2 := by
  classical
  obtain ⟨m', h1, _, h3, _⟩ := buildDmc_spec b
  rw [h] at h1
  cases h1
  obtain ⟨quads, e1, e2, e3⟩ := assembled_quads h3
  refine ⟨quads, e1, ?_, ?_, e3⟩
  · rw [e2]; exact (jobs_nodup _ _).filter _
  · intro v a
    rw [e2, List.mem_filter, mem_jobs]
    simp

/-- Non-vacuity: the ball has a visible surface in the chunk of the origin: three quads. -/
example : ∃ m, buildDmc ball = some m ∧ Crosses (field ball) ball.iso ⟨0, 0, 0⟩ .x ∧ InChunk ball.size ball.pos ⟨0, 0, 0⟩ ∧ cornersOf m ≠ [] := by
  obtain ⟨m, h, _, _⟩ := C46_mesh_wellformed ball
  have hc : Crosses (field ball) ball.iso ⟨0, 0, 0⟩ .x := by
    unfold Crosses; rw [ball_solid, ball_solid]; simp [I3.next]
  have hi : InChunk ball.size ball.pos ⟨0, 0, 0⟩ := by simp [InChunk, ball]
  refine ⟨m, h, hc, hi, ?_⟩
  obtain ⟨quads, e1, _, e3, e4⟩ := C46_one_quad_per_crossing h
  obtain ⟨Q, hQ, hq⟩ := List.mem_map.mp ((e3 _ _).mpr ⟨hi, hc⟩)
  obtain ⟨p0, p1, p2, p3, p4, p5, hT, _⟩ := e4 Q hQ
  rw [e1]
  intro hnil
  have := List.flatMap_eq_nil_iff.mp hnil Q hQ
  rw [hT] at this
  cases this

open Classical in
/-- **C46.** No cracks, locally: given chunks that do not overlap and their meshes, take a position `p` such that every crossed lattice edge near `p`
starts in one of the chunks.  Then every triangle side from `p` to some `q` is matched by one from `q` to `p`, whichever chunks the triangles come from. -/
theorem C46_no_cracks (b : Build) {chunks : List I3} {meshes : List (List (V3 × ℝ) × List Nat)} (hapart : Apart b.size chunks)
    (hbuilt : List.Forall₂ (fun c m => buildDmc { b with pos := c } = some m) chunks meshes) (p q : V3)
    (hnear : ∀ v a, Crosses (field b) b.iso v a → Close v p → ∃ c ∈ chunks, InChunk b.size c v) :
    (worldEdges meshes).count (p, q) = (worldEdges meshes).count (q, p) :=
  world_balanced b hapart hbuilt p hnear q

/-- **C46.** If the chunks contain all crossed lattice edges, their meshes together form a closed, consistently oriented surface. -/
theorem C46_closed (b : Build) {chunks : List I3} {meshes : List (List (V3 × ℝ) × List Nat)} (hapart : Apart b.size chunks)
    (hbuilt : List.Forall₂ (fun c m => buildDmc { b with pos := c } = some m) chunks meshes)
    (hall : ∀ v a, Crosses (field b) b.iso v a → ∃ c ∈ chunks, InChunk b.size c v) : Closed (worldEdges meshes) :=
  closed_of_count fun p q => world_balanced b hapart hbuilt p (fun v a hc _ => hall v a hc) q

theorem built_of (b : Build) (chunks : List I3) : ∃ meshes, List.Forall₂ (fun c m => buildDmc { b with pos := c } = some m) chunks meshes := by
  induction chunks with
  | nil => exact ⟨[], .nil⟩
  | cons c cs ih =>
    obtain ⟨ms, h⟩ := ih
    obtain ⟨m, hm, _⟩ := buildDmc_spec { b with pos := c }
    exact ⟨m :: ms, .cons hm h⟩

/-- Non-vacuity: the ball's four chunks (six quads in four meshes that share vertices) meet the hypotheses. -/
example : ∃ meshes, List.Forall₂ (fun c m => buildDmc { ball with pos := c } = some m) ballChunks meshes ∧ Closed (worldEdges meshes) := by
  obtain ⟨ms, h⟩ := built_of ball ballChunks
  exact ⟨ms, h, C46_closed ball ball_apart h ball_cover⟩

/-- **C46.** Every vertex is the mean of points on crossed edges of one lattice cell, each at the place where the density, interpolated along the edge, has the iso value. -/
theorem C46_vertices {b : Build} {m : List (V3 × ℝ) × List Nat} (h : buildDmc b = some m) : ∀ e ∈ m.1, ∃ (cell : I3) (L : List V3),
    L ≠ [] ∧ (∀ q ∈ L, OnEdge (field b) b.iso q ∧ InCell cell q) ∧ e.1 = mean L := by
  obtain ⟨m', h1, _, _, h4⟩ := buildDmc_spec b
  rw [h] at h1; cases h1
  intro e he
  obtain ⟨x, y, z, k, _, hne, hp, _⟩ := h4 e he
  obtain ⟨L, h5, h6, h7⟩ := gpos_mean hne
  exact ⟨_, L, h5, h6, hp.trans h7⟩

/-- **C46.** Where the density is an affine function, all vertices lie exactly on its iso plane. -/
theorem C46_plane {b : Build} {m : List (V3 × ℝ) × List Nat} (h : buildDmc b = some m) (kx ky kz k : ℝ) (hf : ∀ v : I3, field b v = kx * v.x + ky * v.y + kz * v.z + k) :
    ∀ e ∈ m.1, kx * e.1.x + ky * e.1.y + kz * e.1.z + k = b.iso := by
  intro e he
  obtain ⟨_, L, hne, hL, hp⟩ := C46_vertices h e he
  have hq : ∀ q ∈ L, kx * q.x + ky * q.y + kz * q.z = b.iso - k := by
    intro q hq
    obtain ⟨u, a, t, _, _, _, rfl, ht⟩ := (hL q hq).1
    cases a <;> simp only [I3.along, I3.next, hf] at ht ⊢ <;> push_cast at ht <;> linarith
  have hlen : (L.length : ℝ) ≠ 0 := by rw [Ne, Nat.cast_eq_zero, List.length_eq_zero_iff]; exact hne
  have hs : kx * (L.map V3.x).sum + ky * (L.map V3.y).sum + kz * (L.map V3.z).sum = L.length * (b.iso - k) := by
    clear hp hlen hne hL
    induction L with
    | nil => simp
    | cons a L ih =>
      have h1 := hq a (List.mem_cons_self ..)
      have h2 := ih (fun q h => hq q (List.mem_cons_of_mem _ h))
      simp only [List.map_cons, List.sum_cons, List.length_cons]; push_cast; linarith
  rw [hp]
  simp only [mean]
  field_simp
  linarith

/-- Non-vacuity: a slanted plane that crosses a lattice edge in the chunk of the origin. -/
example : ∃ (b : Build) (m : List (V3 × ℝ) × List Nat), buildDmc b = some m ∧ cornersOf m ≠ [] ∧ ∀ e ∈ m.1, 1 * e.1.x + 2 * e.1.y + 3 * e.1.z + 0 = (1 / 2 : ℝ) := by
  obtain ⟨b, hb⟩ : ∃ b : Build, b = ⟨1, ⟨0, 0, 0⟩, 1 / 2, fun x y z => x + 2 * y + 3 * z, false⟩ := ⟨_, rfl⟩
  obtain ⟨m, h, _, _⟩ := C46_mesh_wellformed b
  have hc : Crosses (field b) b.iso ⟨0, 0, 0⟩ .x := by
    unfold Crosses; rw [hb]; norm_num [field, I3.next]
  refine ⟨b, m, h, ?_, ?_⟩
  · obtain ⟨quads, e1, _, e3, e4⟩ := C46_one_quad_per_crossing h
    obtain ⟨Q, hQ, hq⟩ := List.mem_map.mp ((e3 _ _).mpr ⟨by simp [InChunk, hb], hc⟩)
    obtain ⟨p0, p1, p2, p3, p4, p5, hT, _⟩ := e4 Q hQ
    rw [e1]
    intro hnil
    have := List.flatMap_eq_nil_iff.mp hnil Q hQ
    rw [hT] at this; cases this
  · have := C46_plane h 1 2 3 0 (fun v => by simp [field, hb])
    intro e he
    rw [this e he, hb]

/-- **C46.** Where the density is a polynomial of degree two, the brightness of every vertex is that of a surface which faces along the exact gradient at the vertex: shading has no
seams at cell or chunk borders. -/
theorem C46_shading {b : Build} {m : List (V3 × ℝ) × List Nat} (h : buildDmc b = some m) (P : Poly) (hf : ∀ v : I3, field b v = P.eval ⟨v.x, v.y, v.z⟩) :
    ∀ e ∈ m.1, e.2 = brightness (P.grad e.1) := by
  obtain ⟨m', h1, _, _, h4⟩ := buildDmc_spec b
  rw [h] at h1; cases h1
  intro e he
  obtain ⟨x, y, z, k, hi, _, hp, hl⟩ := h4 e he
  rw [hl, light_poly b P hf hi _ (vert_unit _ _ _ _), hp]
  rfl

/-- Non-vacuity: the ball is such a polynomial and its mesh has vertices; the brightness of a vertex is that of the direction from the centre. -/
example : ∃ m, buildDmc ball = some m ∧ m.1 ≠ [] ∧ ∀ e ∈ m.1, e.2 = brightness ⟨2 * e.1.x, 2 * e.1.y, 2 * e.1.z⟩ := by
  obtain ⟨m, h, _, _⟩ := C46_mesh_wellformed ball
  refine ⟨m, h, ?_, fun e he => ?_⟩
  · have hc : Crosses (field ball) ball.iso ⟨0, 0, 0⟩ .x := by
      unfold Crosses; rw [ball_solid, ball_solid]; simp [I3.next]
    obtain ⟨quads, e1, _, e3, e4⟩ := C46_one_quad_per_crossing h
    obtain ⟨Q, hQ, hq⟩ := List.mem_map.mp ((e3 _ _).mpr ⟨by simp [InChunk, ball], hc⟩)
    obtain ⟨p0, p1, p2, p3, p4, p5, hT, _⟩ := e4 Q hQ
    intro h0
    have : cornersOf m = [] := by unfold cornersOf; simp [h0]
    rw [e1] at this
    have := List.flatMap_eq_nil_iff.mp this Q hQ
    rw [hT] at this; cases this
  · have := C46_shading h ⟨0, 0, 0, 0, 1, 1, 1, 0, 0, 0, 0⟩ (fun v => by simp [field, ball, Poly.eval]) e he
    rw [this]
    simp [Poly.grad]

end FastNoise.Mesh
