import Verif.Gradient
/-!
# Specification of gradient selection (C26)

The gradient vectors, listed by selector.  A selector is a small number computed from documented bits of the hash.
-/
namespace FastNoise.Gradient
open FastNoise.Hash

noncomputable section

/-- The eight 2D Perlin gradients of the comment Utils.inl:164-165: (±(1+√2), ±1) and (±1, ±(1+√2)). -/
def perlin2 (i : Fin 8) : ℝ × ℝ :=
  ![(1 + √2, 1), (-(1 + √2), 1), (1 + √2, -1), (-(1 + √2), -1), (1, 1 + √2), (-1, 1 + √2), (1, -(1 + √2)), (-1, -(1 + √2))] i

/-- The sixteen 3D gradients: the twelve edge midpoints of a cube, four of them twice (as in Perlin's improved noise). -/
def common3 (i : Fin 16) : ℝ × ℝ × ℝ :=
  ![(1, 1, 0), (-1, 1, 0), (1, -1, 0), (-1, -1, 0), (1, 0, 1), (-1, 0, 1), (1, 0, -1), (-1, 0, -1),
    (0, 1, 1), (0, -1, 1), (0, 1, -1), (0, -1, -1), (1, 1, 0), (0, -1, 1), (-1, 1, 0), (0, -1, -1)] i

/-- ±1 from bit `b` of `i`. -/
def sgn (i b : Nat) : ℝ := if i.testBit b then -1 else 1

/-- The 32 4D Perlin gradients (0, ±1, ±1, ±1) and permutations: bits 3 and 4 choose the axis that is zero, bits 0 to 2 the signs. -/
def perlin4 (i : Fin 32) : ℝ × ℝ × ℝ × ℝ :=
  let s := sgn i
  ![(0, s 0, s 1, s 2), (s 0, 0, s 1, s 2), (s 0, s 1, 0, s 2), (s 0, s 1, s 2, 0)] ⟨i / 8, by omega⟩

/-- The twelve 2D simplex gradients: length 2, directions at multiples of 30 degrees. -/
def simplex2 (i : Fin 12) : ℝ × ℝ :=
  ![(√3, 1), (-√3, -1), (1, √3), (-1, -√3), (√3, -1), (-√3, 1), (-1, √3), (1, -√3), (2, 0), (-2, 0), (0, 2), (0, -2)] i

/-- The twenty 4D simplex gradients, the roots of A4: with k = 1/(√5+1), plus or minus (k,k,k,k) + unit vector, and
the differences of two unit vectors. -/
def simplex4 (i : Fin 20) : ℝ × ℝ × ℝ × ℝ :=
  let k : ℝ := 1 / (√5 + 1)
  ![(k + 1, k, k, k), (k, k + 1, k, k), (k, k, k + 1, k), (k, k, k, k + 1),
    (-1, 1, 0, 0), (1, -1, 0, 0), (0, 0, -1, 1), (0, 0, 1, -1),
    (-1, 0, 1, 0), (0, -1, 0, 1), (1, 0, -1, 0), (0, 1, 0, -1),
    (-1, 0, 0, 1), (0, -1, 1, 0), (0, 1, -1, 0), (1, 0, 0, -1),
    (-(k + 1), -k, -k, -k), (-k, -(k + 1), -k, -k), (-k, -k, -(k + 1), -k), (-k, -k, -k, -(k + 1))] i

/-- Inner products. -/
def dot2 (g : ℝ × ℝ) (x y : ℝ) : ℝ := g.1 * x + g.2 * y
@[inherit_doc dot2] def dot3 (g : ℝ × ℝ × ℝ) (x y z : ℝ) : ℝ := g.1 * x + g.2.1 * y + g.2.2 * z
@[inherit_doc dot2] def dot4 (g : ℝ × ℝ × ℝ × ℝ) (x y z w : ℝ) : ℝ := g.1 * x + g.2.1 * y + g.2.2.1 * z + g.2.2.2 * w

/-- The low `k` bits of a hash. -/
def low (k : Nat) (h : I32) : Fin (2 ^ k) := ⟨h.toNat % 2 ^ k, Nat.mod_lt _ (by positivity)⟩

end
end FastNoise.Gradient
