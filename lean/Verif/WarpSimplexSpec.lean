import Verif.SimplexSpec
import Verif.WarpGradSpec
import Verif.WarpGrad
/-!
# Specification of the simplex domain warps (C45)

The warp vector is a vector valued simplex noise: the sum, over all grid points, of the falloff times the matrix of the grid point applied to the offset from it.
-/
namespace FastNoise.WarpSimplex
open FastNoise.Hash FastNoise.Simplex FastNoise.WarpGrad Matrix

noncomputable section

/-- The contribution of grid point `v` to the warp vector at `p`: falloff times matrix times offset (its mirror image in 3D). -/
def vecContribution {n : Nat} (M : I32 → Matrix (Fin n) (Fin n) ℝ) (seed : I32) (r2 : ℝ) (p : Fin n → ℝ) (v : Fin n → ℤ) : Fin n → ℝ :=
  max (r2 - distSq p (gridPoint v)) 0 ^ 4 • (M (gridHash seed v) *ᵥ rampArg fun i => p i - gridPoint v i)

/-- The sum over all grid points. -/
def gridVector {n : Nat} (M : I32 → Matrix (Fin n) (Fin n) ℝ) (seed : I32) (r2 : ℝ) (p : Fin n → ℝ) : Fin n → ℝ :=
  fun k => ∑ᶠ v : Fin n → ℤ, vecContribution M seed r2 p v k

/-- The matrices of grid points in 2D, by hash. -/
def matrix2 : Scheme → I32 → Matrix (Fin 2) (Fin 2) ℝ
  | .orthogonalGradientMatrix => turnMatrix2
  | .gradientOuterProduct => outerMatrix2

/-- The matrices of grid points in 3D, by hash. -/
def gridMatrix3 : Scheme → I32 → Matrix (Fin 3) (Fin 3) ℝ
  | .orthogonalGradientMatrix => turnMatrix3
  | .gradientOuterProduct => outerMatrix3

/-- In 3D the outer product scheme works on mirrored vectors; the result is mirrored back. -/
def backMirror : Scheme → (Fin 3 → ℝ) → Fin 3 → ℝ
  | .orthogonalGradientMatrix, v => v
  | .gradientOuterProduct, v => mirror v

/-- The orientation step as the code has it: with the outer product in 3D, `c` times the sum of the components is added to each. -/
def orient {n : Nat} (c : ℝ) (s : Scheme) (v : Fin n → ℝ) : Fin n → ℝ := if s = .gradientOuterProduct ∧ n = 3 then fun k => v k + c * ∑ j, v j else v

/-- The factor that brings the raw vector of DomainWarpSimplex to a length about 1: by scheme and dimension. -/
def simplexGain : Scheme → Nat → ℝ
  | .orthogonalGradientMatrix, 2 => 70.1480577066486
  | .orthogonalGradientMatrix, 3 => 16.281631889139874
  | .orthogonalGradientMatrix, _ => 30.88161777516092
  | .gradientOuterProduct, 2 => 49.918426513671875 / 2
  | .gradientOuterProduct, 3 => 32.69428253173828125 / 1.4142135623730951
  | .gradientOuterProduct, _ => 33.653125584827855 / 1.4142135623730951

/-- Likewise for DomainWarpSuperSimplex. -/
def superGain : Scheme → Nat → ℝ
  | .orthogonalGradientMatrix, 2 => 12.814453124999995
  | .orthogonalGradientMatrix, 3 => 37.63698669623629
  | .orthogonalGradientMatrix, _ => 48.80058117543753
  | .gradientOuterProduct, 2 => 9.28993664146183 / 2
  | .gradientOuterProduct, 3 => 144.736422163332608 / 1.4142135623730951
  | .gradientOuterProduct, _ => 115.21625311930542 / 1.4142135623730951

end
end FastNoise.WarpSimplex
