import Verif.Mesh

/-!
# The height map mesh of the preview: `BuildHeightMap2DMesh` (tools/NodeEditor/MeshNoisePreview.cpp:955-1006)

`float` is modelled by the reals; reading outside the density array is the outcome `none`.
-/

namespace FastNoise.Mesh

/-- `Chunk::BuildData` (MeshNoisePreview.h:130-141), the fields the height map depends on: `SIZE` (128), the x and z coordinate of `pos`, `generatorScaled`
evaluated with the seed, `heightmapMultiplier`. -/
structure HBuild where
  size : Nat
  posX : ℤ
  posZ : ℤ
  gen : ℝ → ℝ → ℝ
  mult : ℝ

/-- MeshNoisePreview.cpp:56-76 `GridPositions2D` (closed form of the double loop) and 960-962: the density array. -/
noncomputable def hdensity (b : HBuild) (S idx : Nat) : ℝ := b.gen (((idx % S : Nat) : ℝ) + b.posX) (((idx / S : Nat) : ℝ) + b.posZ)

/-- `Math::cross`. -/
noncomputable def cross (a b : V3) : V3 := ⟨a.y * b.z - a.z * b.y, a.z * b.x - a.x * b.z, a.x * b.y - a.y * b.x⟩
/-- `Vector3::dot()`: the squared length. -/
noncomputable def sq (a : V3) : ℝ := a.x * a.x + a.y * a.y + a.z * a.z
/-- `Vector3::normalized()`. -/
noncomputable def normalized (a : V3) : V3 := ⟨a.x / √(sq a), a.y / √(sq a), a.z / √(sq a)⟩
/-- Product by components, as in `LIGHT_DIR * v`. -/
noncomputable def mulV (a b : V3) : V3 := ⟨a.x * b.x, a.y * b.y, a.z * b.z⟩

/-- 981: `( LIGHT_DIR * ( cross(..).normalized() + cross(..).normalized() ).normalized() ).dot()`, LIGHT_DIR from MeshNoisePreview.h:158. -/
noncomputable def hlight (v00 v01 v10 v11 : V3) : ℝ :=
  sq (mulV ⟨0.6, 1, 0.4⟩ (normalized (normalized (cross (v10 - v11) (v00 - v11)) + normalized (cross (v01 - v00) (v11 - v00)))))

/-- State of the loops: mesh and `noiseIdx`. -/
abbrev HLoop := (List (V3 × ℝ) × List Nat) × Nat

open Classical in
/-- 972-1000: the body of the inner loop. -/
noncomputable def heightBody (b : HBuild) (S y x : Nat) (s : HLoop) : Option HLoop :=
  let d := hdensity b S
  let yf : ℝ := y + (b.posZ : ℝ)
  let xf : ℝ := x + (b.posX : ℝ)
  let i := s.2
  if Readable (S * S) [(i : ℤ), (i + S : Nat), (i + 1 : Nat), (i + 1 + S : Nat)] then
    let v00 : V3 := ⟨xf, d i * b.mult, yf⟩
    let v01 : V3 := ⟨xf, d (i + S) * b.mult, yf + 1⟩
    let v10 : V3 := ⟨xf + 1, d (i + 1) * b.mult, yf⟩
    let v11 : V3 := ⟨xf + 1, d (i + 1 + S) * b.mult, yf + 1⟩
    let light := hlight v00 v01 v10 v11
    let n := s.1.1.length
    let r := if sq (v00 + v11) < sq (v01 + v10) then 2 else 0
    some ((s.1.1 ++ [(v00, light), (v01, light), (v10, light), (v11, light)], s.1.2 ++ [n, n + 3 - r, n + 2, n + 3, n + r, n + 1]), i + 1)
  else none

/-- 955-1006 `BuildHeightMap2DMesh`. -/
noncomputable def buildHeight (b : HBuild) : Option (List (V3 × ℝ) × List Nat) :=
  let S := b.size + 1
  let row (y : Nat) (s : HLoop) : Option HLoop := (forN (heightBody b S y) b.size s).map fun s => (s.1, s.2 + 1)
  (forN row b.size (([], []), 0)).map fun s => s.1

end FastNoise.Mesh
