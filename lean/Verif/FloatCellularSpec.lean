import Verif.Num
import Mathlib.Analysis.Real.Sqrt
/-! # What "distance" means, for C70 -/
namespace FastNoise.FloatCellular
open FastNoise.Num

/-- Specification: the length of a difference vector in each metric (Minkowski is not covered). -/
noncomputable def metric (fn : DistFn) (l : List ℝ) : ℝ := match fn with
  | .euclidean => √(l.map fun t => t ^ 2).sum
  | .euclideanSquared => (l.map fun t => t ^ 2).sum
  | .manhattan => (l.map fun t => |t|).sum
  | .hybrid => (l.map fun t => t ^ 2 + |t|).sum
  | .maxAxis => (l.map fun t => |t|).foldr max 0
  | .minkowski => 0

/-- Specification: the allowed error of a distance of `n` coordinates each of which is off by at most `δ`: `δ` itself where the metric passes it on, plus rounding. -/
noncomputable def metricErr (fn : DistFn) (n : ℕ) (δ : ℝ) : ℝ := match fn with
  | .euclidean => √n * δ + 2 ^ (-17 : ℤ)
  | .euclideanSquared => n * ((4 + δ) * δ) + 2 ^ (-15 : ℤ)
  | .manhattan => n * (δ + 2 ^ (-21 : ℤ))
  | .hybrid => n * ((5 + δ) * δ + 2 ^ (-19 : ℤ))
  | .maxAxis => δ
  | .minkowski => 0

/-- Specification: the 3 x 3 (x 3 x 3) lattice cells around a sample. -/
noncomputable def cubes : List ℝ → List (List ℤ)
  | [] => [[]]
  | x :: r => [roundEven x - 1, roundEven x, roundEven x + 1].flatMap fun k => (cubes r).map (k :: ·)

/-- Specification: error of one coordinate of the difference between a feature point and the sample, `ρ` being the relative error of the processor's inverse square root. -/
noncomputable def coordErr (ρ : ℝ) : ℝ := ρ / 2 + 5 / 2 ^ 24
/-- Specification: the same for CellularLookup, which adds the displacement to the absolute coordinates of the cell: at positions up to `2^k` this costs `2^(k-25)` more. -/
noncomputable def coordErrLookup (k : ℤ) (ρ : ℝ) : ℝ := ρ / 2 + 5 / 2 ^ 24 + 2 ^ (k - 25)

end FastNoise.FloatCellular
