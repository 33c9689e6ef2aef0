import Verif.Mesh

/-! Specification vocabulary for the meshes of the preview: lattice field, oriented edges, closed surfaces. -/

namespace FastNoise.Mesh

/-- The noise on the integer lattice, in preview coordinates (the up axis may be the generator's z axis). -/
noncomputable def field (b : Build) (v : I3) : ℝ := if b.swapYZ then b.gen v.x v.z v.y else b.gen v.x v.y v.z

/-- The neighbour of a lattice point along an axis. -/
def I3.next (v : I3) : Axis → I3
  | .x => ⟨v.x + 1, v.y, v.z⟩
  | .y => ⟨v.x, v.y + 1, v.z⟩
  | .z => ⟨v.x, v.y, v.z + 1⟩

/-- The surface crosses the lattice edge from `v` along `a`: exactly one end is solid (density at most the iso value). -/
def Crosses (f : I3 → ℝ) (iso : ℝ) (v : I3) (a : Axis) : Prop := ¬ (f v ≤ iso ↔ f (v.next a) ≤ iso)

/-- The lattice points a chunk of edge length `n` at `c` is responsible for. -/
def InChunk (n : Nat) (c v : I3) : Prop := (c.x ≤ v.x ∧ v.x < c.x + n) ∧ (c.y ≤ v.y ∧ v.y < c.y + n) ∧ (c.z ≤ v.z ∧ v.z < c.z + n)

/-- The corner positions of a mesh's triangles, three per triangle. -/
def cornersOf (m : List (V3 × ℝ) × List Nat) : List V3 := m.2.filterMap fun i => m.1[i]?.map Prod.fst

/-- The directed edges of triangles. -/
def directedEdges : List V3 → List (V3 × V3)
  | a :: b :: c :: r => (a, b) :: (b, c) :: (c, a) :: directedEdges r
  | _ => []

/-- A closed, consistently oriented surface: the directed edges can be matched in pairs of opposite direction. -/
def Closed (e : List (V3 × V3)) : Prop := e.Perm (e.map Prod.swap)

/-- An indexed triangle mesh: indices in range, three per triangle. -/
def WellFormed (m : List (V3 × ℝ) × List Nat) : Prop := (∀ i ∈ m.2, i < m.1.length) ∧ 3 ∣ m.2.length

/-- The chunks do not overlap. -/
def Apart (n : Nat) (cs : List I3) : Prop := cs.Pairwise fun c c' => ∀ v, ¬ (InChunk n c v ∧ InChunk n c' v)

/-- Close to a position: within one lattice step on every axis. -/
def Close (v : I3) (p : V3) : Prop := |(v.x : ℝ) - p.x| ≤ 1 ∧ |(v.y : ℝ) - p.y| ≤ 1 ∧ |(v.z : ℝ) - p.z| ≤ 1

/-- The directed edges of all meshes. -/
def worldEdges (ms : List (List (V3 × ℝ) × List Nat)) : List (V3 × V3) := ms.flatMap fun m => directedEdges (cornersOf m)

/-- The four cells that share the lattice edge from `v` along `a`. -/
def CellAt (v : I3) (a : Axis) (u : I3) : Prop :=
  (u.x = v.x ∨ u.x = v.x - 1 ∧ a ≠ .x) ∧ (u.y = v.y ∨ u.y = v.y - 1 ∧ a ≠ .y) ∧ (u.z = v.z ∨ u.z = v.z - 1 ∧ a ≠ .z)

/-- The position lies in the closed unit cell with least corner `u`. -/
def InCell (u : I3) (p : V3) : Prop := (u.x ≤ p.x ∧ p.x ≤ u.x + 1) ∧ (u.y ≤ p.y ∧ p.y ≤ u.y + 1) ∧ (u.z ≤ p.z ∧ p.z ≤ u.z + 1)

/-- Component along an axis of `(q - p) × (r - p)`, the outward direction of a triangle `p q r` (counter-clockwise seen from outside). -/
noncomputable def facing (a : Axis) (p q r : V3) : ℝ :=
  match a with
  | .x => (q.y - p.y) * (r.z - p.z) - (q.z - p.z) * (r.y - p.y)
  | .y => (q.z - p.z) * (r.x - p.x) - (q.x - p.x) * (r.z - p.z)
  | .z => (q.x - p.x) * (r.y - p.y) - (q.y - p.y) * (r.x - p.x)

/-- Two triangles that stand for the crossed lattice edge from `v` along `a`: their corners lie one in each of the four cells around the edge, the
two triangles share a diagonal, and together they face the end that is air. -/
def IsQuad (f : I3 → ℝ) (iso : ℝ) (v : I3) (a : Axis) (T : List V3) : Prop :=
  ∃ p0 p1 p2 p3 p4 p5, T = [p0, p1, p2, p3, p4, p5] ∧ (∀ p ∈ T, ∃ u, CellAt v a u ∧ InCell u p) ∧
    (∀ u, CellAt v a u → ∃ p ∈ T, InCell u p) ∧ (p0 = p4 ∧ p1 = p3 ∨ p1 = p5 ∧ p2 = p4) ∧
    if f v ≤ iso then 0 ≤ facing a p0 p1 p2 + facing a p3 p4 p5 else facing a p0 p1 p2 + facing a p3 p4 p5 ≤ 0

end FastNoise.Mesh
