import Verif.Lattice
import Mathlib.Algebra.BigOperators.Fin
import Mathlib.Algebra.BigOperators.Finprod
/-!
# Specification of simplex noise

The simplex grid of dimension `n` is the cubic grid squashed along the main diagonal: the grid point with integer coordinates `v` lies at `v` plus a
multiple of its coordinate sum in every coordinate.  Each grid point owns a gradient, selected by hashing its integer coordinates, and contributes
the linear ramp of this gradient times a radial falloff `max (r² - distance²) 0 ^ 4`.  Simplex noise is the sum of all contributions.

Nothing here mentions cells, ranks, masks or nearest vertices: those are the ways the code finds the relevant grid points.
-/
namespace FastNoise.Simplex
open FastNoise.Hash FastNoise.Gradient

noncomputable section

/-- How far a grid point with coordinate sum one is pushed back along each axis; `1 + n * squash n` is `1 / √(n + 1)`. -/
def squash (n : Nat) : ℝ := (1 / √(n + 1) - 1) / n

/-- The position of the grid point with integer coordinates `v`. -/
def gridPoint {n : Nat} (v : Fin n → ℤ) : Fin n → ℝ := fun i => v i + squash n * ∑ j, (v j : ℝ)

/-- Squared Euclidean distance. -/
def distSq {n : Nat} (p q : Fin n → ℝ) : ℝ := ∑ i, (p i - q i) ^ 2

/-- Mirror image in the plane orthogonal to the main diagonal (of a vector). -/
def mirror {n : Nat} (u : Fin n → ℝ) : Fin n → ℝ := fun i => u i - 2 / n * ∑ j, u j

/-- The vector the gradient ramp is evaluated at: the offset from the grid point; in three dimensions the noise is mirrored, so its mirror image. -/
def rampArg {n : Nat} (u : Fin n → ℝ) : Fin n → ℝ := if n = 3 then mirror u else u

/-- The hash selecting the gradient of a grid point. -/
def gridHash {n : Nat} (seed : I32) (v : Fin n → ℤ) : I32 := hashPrimes seed (primed (List.ofFn fun i => BitVec.ofInt 32 (v i)))

/-- The contribution of grid point `v` at position `p`, with falloff radius² `r2`. -/
def contribution {n : Nat} (ramp : I32 → List ℝ → ℝ) (seed : I32) (r2 : ℝ) (p : Fin n → ℝ) (v : Fin n → ℤ) : ℝ :=
  max (r2 - distSq p (gridPoint v)) 0 ^ 4 * ramp (gridHash seed v) (List.ofFn (rampArg fun i => p i - gridPoint v i))

/-- The sum of the contributions of all grid points. -/
def gridNoise {n : Nat} (ramp : I32 → List ℝ → ℝ) (seed : I32) (r2 : ℝ) (p : Fin n → ℝ) : ℝ := ∑ᶠ v : Fin n → ℤ, contribution ramp seed r2 p v

/-- Corner number `k` of the simplex with first corner `base`: the axes of rank below `k` have been stepped along. -/
def corner {n : Nat} (base : Fin n → ℤ) (rank : Equiv.Perm (Fin n)) (k : Nat) : Fin n → ℤ := fun i => base i + if (rank i : Nat) < k then 1 else 0

/-- `p` is a convex combination of the corners of this simplex. -/
def InSimplex {n : Nat} (p : Fin n → ℝ) (base : Fin n → ℤ) (rank : Equiv.Perm (Fin n)) : Prop :=
  ∃ t : Fin (n + 1) → ℝ, (∀ k, 0 ≤ t k) ∧ ∑ k, t k = 1 ∧ ∀ i, p i = ∑ k, t k * gridPoint (corner base rank k) i

/-- The radius² of the falloff of Simplex noise. -/
def simplexRadiusSq (n : Nat) : ℝ := if n = 2 then 1 / 2 else 3 / 5
/-- The radius² of the falloff of SuperSimplex noise. -/
def superRadiusSq (n : Nat) : ℝ := if n = 2 then 2 / 3 else if n = 3 then 3 / 4 else 4 / 5

/-- The raw value that Simplex noise maps to the upper end of its output range. -/
def simplexPeak : Nat → ℝ
  | 2 => 0.0261208079755306243896484375
  | 3 => 0.030586399137973785400390625
  | _ => 0.036730043590068817138671875
/-- The raw value that SuperSimplex noise maps to the upper end of its output range. -/
def superPeak : Nat → ℝ
  | 2 => 0.14084912836551666259765625
  | 3 => 0.0069091119803488254547119140625
  | _ => 0.011310013942420482635498046875

/-- Coordinates below 2^28 feature sizes: far enough from the limits of a 32 bit integer. -/
def Fits {n : Nat} (scale : ℝ) (x : Fin n → ℝ) : Prop := ∀ i, |x i / scale| ≤ 2 ^ 28

end
end FastNoise.Simplex
