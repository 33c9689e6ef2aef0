import Verif.WarpGradSpec
import Verif.WarpGrad
/-!
# Specification of the 4D matrices of the scheme *orthogonal gradient matrix* (C45)

Twenty bases of four vectors of length √2.  In twelve of them (`pairBasis`) the columns `p` and `n` are distinguished, in eight (`singleBasis`) one column `j`.
-/
namespace FastNoise.WarpGrad
open FastNoise.Hash FastNoise.Gradient Matrix

noncomputable section

/-- Position of column `c` among the columns that are not distinguished, in increasing order. -/
def rank (marked : Fin 4 → Bool) (c : Fin 4) : Nat := ((List.finRange 4).filter fun d => d < c && !marked d).length

/-- -√2 if `c` is the `r`-th of the columns that are not distinguished. -/
def diagonal (marked : Fin 4 → Bool) (r : Nat) (c : Fin 4) : ℝ := if rank marked c = r then -√2 else 0

/-- The golden ratio constant of the 4D simplex grid. -/
def goldSkew : ℝ := 1 / (√5 + 1)

/-- Basis with distinguished columns `p` and `n`; `bump` is 1 in column `p`, and `b` in column `n` (0 for an orthogonal basis). -/
def pairBasis (p n : Fin 4) (b : ℝ) : Matrix (Fin 4) (Fin 4) ℝ :=
  let marked := fun c => c = p || c = n
  let entry := fun (idx fill : ℝ) (c : Fin 4) => if c = p then idx + 1 else if c = n then idx + b else fill
  of ![fun c => entry (-0.375999676691291) (0.222726847849776 + diagonal marked 0 c) c,
       fun c => entry (-0.375999676691291) (0.222726847849776 + diagonal marked 1 c) c,
       fun c => entry (-0.375999676691291 + 0.437016024448821) (0.222726847849776 + 0.437016024448821) c,
       fun c => entry (-goldSkew - 1) goldSkew c]

/-- Basis with one distinguished column; `e` is 0 for the first kind and 1 for the second, `b` equals `e` for an orthogonal basis. -/
def singleBasis (j : Fin 4) (e b : ℝ) : Matrix (Fin 4) (Fin 4) ℝ :=
  let marked := fun c => decide (c = j)
  let entry := fun (idx fill : ℝ) (c : Fin 4) => if c = j then idx + b else fill
  let shift := -0.124000323308709 + e * goldSkew
  let shiftD := 0.190983005625053 + e * goldSkew
  of ![fun c => entry (-0.375999676691291 + shift) (0.222726847849776 + shift + diagonal marked 0 c) c,
       fun c => entry (-0.375999676691291 + shift) (0.222726847849776 + shift + diagonal marked 1 c) c,
       fun c => entry (-0.375999676691291 + shift) (0.222726847849776 + shift + diagonal marked 2 c) c,
       fun c => entry (-goldSkew + shiftD - 1) (goldSkew + shiftD) c]

/-- The distinguished columns of basis number `k`, 4 ≤ k < 16. -/
def pairCols (k : Fin 20) : Fin 4 × Fin 4 := (⟨k % 4, Nat.mod_lt _ (by decide)⟩, ⟨(k / 4 % 4) ^^^ (k % 4), Nat.xor_lt_two_pow (n := 2) (Nat.mod_lt _ (by decide)) (Nat.mod_lt _ (by decide))⟩)
/-- The distinguished column of the others. -/
def singleCol (k : Fin 20) : Fin 4 := ⟨k % 4, Nat.mod_lt _ (by decide)⟩

/-- The twenty bases as the AVX512 tables have them: four of the first kind, twelve with two columns, four of the second kind. -/
def basis512 (k : Fin 20) : Matrix (Fin 4) (Fin 4) ℝ :=
  if k < 4 then singleBasis (singleCol k) 0 0 else if k < 16 then pairBasis (pairCols k).1 (pairCols k).2 0 else singleBasis (singleCol k) 1 1

/-- As the AVX2 code computes them: the first kind never occurs, and both distinguished columns of a pair are treated like the first. -/
def basis256 (k : Fin 20) : Matrix (Fin 4) (Fin 4) ℝ :=
  if 4 ≤ k ∧ k < 16 then pairBasis (pairCols k).1 (pairCols k).2 1 else singleBasis (singleCol k) 1 1

/-- As the code for other instruction sets computes them: a mixture of the first and the second kind. -/
def basisGeneric (k : Fin 20) : Matrix (Fin 4) (Fin 4) ℝ :=
  if 4 ≤ k ∧ k < 16 then pairBasis (pairCols k).1 (pairCols k).2 0 else singleBasis (singleCol k) 1 0

/-- Which row of the basis each axis gets. -/
def axisRow (h : I32) : Fin 4 → Fin 4 :=
  let q := h.toNat / 4
  let a := q * 5 / 2 ^ 24 % 8
  let t := q * 0xD5555556 % 2 ^ 32 / 2 ^ 29
  let x : Nat := a / 2
  let y : Nat := x + 1 + t
  let z : Nat := x + 1 + (a % 2 + if t ≤ a % 2 ∨ 4 ≤ t then 1 else 0)
  ![Fin.ofNat 4 x, Fin.ofNat 4 y, Fin.ofNat 4 z, 2 - (Fin.ofNat 4 x + Fin.ofNat 4 y + Fin.ofNat 4 z)]

/-- The matrix of a grid point with this hash, for given bases. -/
def gridMatrix4 (basis : Fin 20 → Matrix (Fin 4) (Fin 4) ℝ) (h : I32) : Matrix (Fin 4) (Fin 4) ℝ :=
  of fun i => (if h.toNat % 2 = 1 then -1 else 1 : ℝ) • basis (firstOf20 h) (axisRow h i)

/-- The bases on each feature level. -/
def basisOf (ft : Feat) : Fin 20 → Matrix (Fin 4) (Fin 4) ℝ := if ft.avx512 then basis512 else if ft.avx2 then basis256 else basisGeneric

/-- The matrices of grid points in 4D, by hash. -/
def gridMatrixOf4 (ft : Feat) : Scheme → I32 → Matrix (Fin 4) (Fin 4) ℝ
  | .orthogonalGradientMatrix => gridMatrix4 (basisOf ft)
  | .gradientOuterProduct => outerMatrix4

/-- Rows orthogonal and of length √2, up to the precision of the constants. -/
def NearlyOrthogonal (M : Matrix (Fin 4) (Fin 4) ℝ) : Prop := ∀ i j, |M i ⬝ᵥ M j - if i = j then 2 else 0| ≤ 1e-12

end
end FastNoise.WarpGrad
