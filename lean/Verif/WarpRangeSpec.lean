import Verif.Fractal
import Mathlib.Data.Real.Sqrt
import Mathlib.Algebra.BigOperators.Fin
/-!
# Specification of the warp amplitude (C62)

The metadata of the warp amplitude reads "Maximum (euclidean) distance the position can be moved" (include/FastNoise/Generators/DomainWarp.h:32).
-/
namespace FastNoise.WarpRange
open FastNoise.Hash FastNoise.Num FastNoise.Fractal

noncomputable section

/-- Euclidean distance. -/
def distance {n : Nat} (x y : Fin n → ℝ) : ℝ := √(∑ k, (y k - x k) ^ 2)

/-- Called with this seed at position `x`, a node that warps its source asks the source, whatever it is, with the same seed for the value at one position that is at most `r` away from `x`. -/
def MovesAtMost {n : Nat} (node : Src → Src) (seed : I32) (x : Fin n → ℝ) (r : ℝ) : Prop :=
  ∃ y : Fin n → ℝ, distance x y ≤ r ∧ ∀ source : Src, node source seed (List.ofFn x) = source seed (List.ofFn y)

end
end FastNoise.WarpRange
