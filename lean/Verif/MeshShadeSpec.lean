import Verif.MeshSpec

/-! Specification of where the vertices of the preview lie and how bright they are (C46). -/

namespace FastNoise.Mesh

/-- A point on the lattice edge from `v` along `a`. -/
noncomputable def I3.along (v : I3) (a : Axis) (t : ℝ) : V3 :=
  match a with
  | .x => ⟨v.x + t, v.y, v.z⟩
  | .y => ⟨v.x, v.y + t, v.z⟩
  | .z => ⟨v.x, v.y, v.z + t⟩

/-- The place on a crossed lattice edge where the density, interpolated linearly between the ends, has the iso value. -/
def OnEdge (f : I3 → ℝ) (iso : ℝ) (q : V3) : Prop :=
  ∃ u a t, Crosses f iso u a ∧ 0 ≤ t ∧ t ≤ 1 ∧ q = u.along a t ∧ (1 - t) * f u + t * f (u.next a) = iso

/-- The mean of some points. -/
noncomputable def mean (L : List V3) : V3 := ⟨(L.map V3.x).sum / L.length, (L.map V3.y).sum / L.length, (L.map V3.z).sum / L.length⟩

/-- A polynomial density of degree two, plus a multiple of xyz. -/
structure Poly where
  (k x y z xx yy zz xy xz yz xyz : ℝ)

/-- Its value. -/
noncomputable def Poly.eval (p : Poly) (q : V3) : ℝ :=
  p.k + p.x * q.x + p.y * q.y + p.z * q.z + p.xx * q.x ^ 2 + p.yy * q.y ^ 2 + p.zz * q.z ^ 2 + p.xy * q.x * q.y + p.xz * q.x * q.z + p.yz * q.y * q.z + p.xyz * q.x * q.y * q.z

/-- Its gradient. -/
noncomputable def Poly.grad (p : Poly) (q : V3) : V3 :=
  ⟨p.x + 2 * p.xx * q.x + p.xy * q.y + p.xz * q.z + p.xyz * q.y * q.z,
   p.y + 2 * p.yy * q.y + p.xy * q.x + p.yz * q.z + p.xyz * q.x * q.z,
   p.z + 2 * p.zz * q.z + p.xz * q.x + p.yz * q.y + p.xyz * q.x * q.y⟩

open Classical in
/-- Brightness of a surface whose outward direction is `g`: light comes from (0.6, 1, 0.4), ambient light is 0.3; without direction the brightness is 1. -/
noncomputable def brightness (g : V3) : ℝ :=
  if g = ⟨0, 0, 0⟩ then 1
  else (0.65 + 0.35 * ((0.6 * g.x + 1 * g.y + 0.4 * g.z) / (√(0.6 ^ 2 + 1 ^ 2 + 0.4 ^ 2) * √(g.x ^ 2 + g.y ^ 2 + g.z ^ 2)))) ^ 2

end FastNoise.Mesh
