import Verif.Height
import Verif.MeshSpec

/-! Specification vocabulary for the height map mesh. -/

namespace FastNoise.Mesh

/-- The terrain point above a lattice point: the noise is evaluated at (x, z) and scaled. -/
noncomputable def terrain (b : HBuild) (x z : ℤ) : V3 := ⟨x, b.gen x z * b.mult, z⟩

/-- The lattice squares a chunk of edge length `n` at `(cx, cz)` is responsible for. -/
def InTile (n : Nat) (c u : ℤ × ℤ) : Prop := (c.1 ≤ u.1 ∧ u.1 < c.1 + n) ∧ (c.2 ≤ u.2 ∧ u.2 < c.2 + n)

/-- The chunks do not overlap. -/
def TilesApart (n : Nat) (cs : List (ℤ × ℤ)) : Prop := cs.Pairwise fun c c' => ∀ u, ¬ (InTile n c u ∧ InTile n c' u)

/-- Two triangles over the lattice square `u`, with one brightness: both seen from above, together the whole square, split along one diagonal. -/
def IsPatch (b : HBuild) (u : ℤ × ℤ) (T : List (V3 × ℝ)) : Prop :=
  let A := terrain b u.1 u.2
  let B := terrain b u.1 (u.2 + 1)
  let C := terrain b (u.1 + 1) u.2
  let D := terrain b (u.1 + 1) (u.2 + 1)
  ∃ light : ℝ, (T = [A, D, C, D, A, B].map (·, light) ∧ |B.y + C.y| ≤ |A.y + D.y| ∨ T = [A, B, C, D, C, B].map (·, light) ∧ |A.y + D.y| < |B.y + C.y|) ∧
    0.16 ≤ light ∧ light ≤ 1 ∧
    -- on a plane the brightness is that of its normal (-p, 1, -q): light direction times unit normal, squared length
    ∀ p q : ℝ, B.y - A.y = q → C.y - A.y = p → D.y - A.y = p + q → light = ((0.6 * p) ^ 2 + 1 + (0.4 * q) ^ 2) / (p ^ 2 + 1 + q ^ 2)

end FastNoise.Mesh
