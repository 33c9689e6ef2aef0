import Verif.Culling

/-! Specification vocabulary: what a camera sees. -/

namespace FastNoise.Mesh

/-- The triangles of a list of corners. -/
def trianglesOf : List V3 → List (V3 × V3 × V3)
  | a :: b :: c :: r => (a, b, c) :: trianglesOf r
  | _ => []

/-- The position lies inside all planes. -/
def Inside (F : List Plane) (p : V3) : Prop := ∀ P ∈ F, 0 ≤ P.n.x * p.x + P.n.y * p.y + P.n.z * p.z + P.w

/-- The point with barycentric coordinates `s t u`. -/
noncomputable def bary (T : V3 × V3 × V3) (s t u : ℝ) : V3 :=
  ⟨s * T.1.x + t * T.2.1.x + u * T.2.2.x, s * T.1.y + t * T.2.1.y + u * T.2.2.y, s * T.1.z + t * T.2.1.z + u * T.2.2.z⟩

/-- Some point of some triangle of the mesh is in view. -/
def InView (F : List Plane) (m : List (V3 × ℝ) × List Nat) : Prop :=
  ∃ T ∈ trianglesOf (cornersOf m), ∃ s t u : ℝ, 0 ≤ s ∧ 0 ≤ t ∧ 0 ≤ u ∧ s + t + u = 1 ∧ Inside F (bary T s t u)

end FastNoise.Mesh
