import Verif.GradientSpec
import Mathlib.LinearAlgebra.Matrix.Notation
import Mathlib.Data.Matrix.Mul
/-!
# Specification of the vector contributions (C45)

Each grid point owns a matrix, selected by its hash; it moves a position by the product of this matrix with the offset of the position.
For the scheme *gradient outer product* the matrix is a product of two vectors of the gradient list, for the scheme *orthogonal gradient matrix* it is a multiple of an
orthogonal matrix.
-/
namespace FastNoise.WarpGrad
open FastNoise.Hash FastNoise.Gradient Matrix

noncomputable section

/-- Components as a vector. -/
def vec2 (p : ℝ × ℝ) : Fin 2 → ℝ := ![p.1, p.2]
@[inherit_doc vec2] def vec3 (p : ℝ × ℝ × ℝ) : Fin 3 → ℝ := ![p.1, p.2.1, p.2.2]
@[inherit_doc vec2] def vec4 (p : ℝ × ℝ × ℝ × ℝ) : Fin 4 → ℝ := ![p.1, p.2.1, p.2.2.1, p.2.2.2]

/-- The twelve edge midpoints of a cube. -/
def edges3 (i : Fin 12) : ℝ × ℝ × ℝ := common3 (i.castLE (by decide))

/-- The upper bits of a 31 bit hash choose the first of two vectors of a list of twelve. -/
def firstOf12 (h : I32) : Fin 12 := ⟨h.toNat / 2 * 3 / 2 ^ 28 % 12, Nat.mod_lt _ (by decide)⟩
/-- The remainders of the hash modulo three and four choose the second. -/
def secondOf12 (h : I32) : Fin 12 := ⟨4 * (2 * (h.toNat / 2) % 3) + 3 * (h.toNat / 2) % 4, by omega⟩
/-- The upper bits of a 31 bit hash choose the first of two vectors of a list of twenty. -/
def firstOf20 (h : I32) : Fin 20 := ⟨h.toNat / 4 * 5 / 2 ^ 27 % 20, Nat.mod_lt _ (by decide)⟩
/-- The remainders of the hash modulo five and four choose the second. -/
def secondOf20 (h : I32) : Fin 20 := ⟨4 * (2 * (h.toNat / 4) % 5) + h.toNat / 4 % 4, by omega⟩

/-- The matrices of the scheme *gradient outer product*: (second vector)(first vector)ᵀ. -/
def outerMatrix2 (h : I32) : Matrix (Fin 2) (Fin 2) ℝ := vecMulVec (vec2 (simplex2 (secondOf12 h))) (vec2 (simplex2 (firstOf12 h)))
@[inherit_doc outerMatrix2] def outerMatrix3 (h : I32) : Matrix (Fin 3) (Fin 3) ℝ := vecMulVec (vec3 (edges3 (secondOf12 h))) (vec3 (edges3 (firstOf12 h)))
@[inherit_doc outerMatrix2] def outerMatrix4 (h : I32) : Matrix (Fin 4) (Fin 4) ℝ := vecMulVec (vec4 (simplex4 (secondOf20 h))) (vec4 (simplex4 (firstOf20 h)))

/-- Twelve vectors of length √2, at 15 degrees plus multiples of 30 degrees. -/
def directions2 (i : Fin 12) : ℝ × ℝ :=
  let k : ℝ := 1 / (√3 + 1)
  ![(k, k + 1), (-k, k + 1), (k, -k - 1), (-k, -k - 1), (k + 1, k), (-k - 1, k), (k + 1, -k), (-k - 1, -k), (1, 1), (-1, 1), (1, -1), (-1, -1)] i

/-- The 24 matrices of the scheme *orthogonal gradient matrix* in 2D: √2 times a rotation, or a rotation followed by a reflection if the hash is odd. -/
def turnMatrix2 (h : I32) : Matrix (Fin 2) (Fin 2) ℝ :=
  let g := directions2 (firstOf12 h)
  let s : ℝ := if h.toNat % 2 = 1 then -1 else 1
  !![g.1, g.2; -(s * g.2), s * g.1]

/-- A row of a 3D matrix: `c` on the facet's own axis (y, z, x for facet 0, 1, 2), `a` and `b` with signs on the other two. -/
def facetRow (facet : Nat) (s0 s1 a b c : ℝ) : Fin 3 → ℝ := if facet = 0 then ![s0 * a, c, s1 * b] else if facet = 1 then ![s0 * a, s1 * b, c] else ![c, s0 * a, s1 * b]

/-- The 144 matrices of the scheme *orthogonal gradient matrix* in 3D: the rows are, up to signs and their order, (1 + √6/2, 1 - √6/2, -1), (1 - √6/2, 1 + √6/2, -1) and
(1, 1, 2), with the last entry on one of three axes.  With q = hash / 2: q modulo 3 chooses the axis, three bits of 3q two signs and the order of the first two rows, the upper
bits the place of the third row; the lowest bit of the hash is the sign of the whole. -/
def turnMatrix3 (h : I32) : Matrix (Fin 3) (Fin 3) ℝ :=
  let q := h.toNat / 2
  let facet := 2 * q % 3
  let bits := 3 * q
  let s0 : ℝ := if bits % 2 = 1 then -1 else 1
  let s1 : ℝ := if bits / 2 % 2 = 1 then -1 else 1
  let longShort := facetRow facet s0 s1 (1 + √6 / 2) (1 - √6 / 2) (-1)
  let shortLong := facetRow facet s0 s1 (1 - √6 / 2) (1 + √6 / 2) (-1)
  let a := if bits / 4 % 2 = 1 then shortLong else longShort
  let b := if bits / 4 % 2 = 1 then longShort else shortLong
  let c := facetRow facet s0 s1 1 1 2
  let place := (firstOf12 h : Nat) / 4
  (if h.toNat % 2 = 1 then -1 else 1 : ℝ) • of (if place = 0 then ![c, a, b] else if place = 1 then ![a, c, b] else ![a, b, c])

end
end FastNoise.WarpGrad
