import Verif.FloatNoise
import Verif.Grid
import Mathlib.Data.EReal.Basic
/-!
# Grid generation in binary32 arithmetic

`Grid.lean` leaves the float operations open; here they are the rounded ones of `F32.lean`.  Values are extended reals so that the running minimum and maximum can start at the infinities;
an operation with an infinite operand is not modelled and gives `⊤`.
-/
namespace FastNoise.F32
open FastNoise.Num FastNoise.Basic FastNoise.Grid

noncomputable section

/-- An operation on binary32 numbers. -/
def lift2 (f : ℝ → ℝ → ℝ) (a b : EReal) : EReal :=
  if a = ⊤ ∨ a = ⊥ ∨ b = ⊤ ∨ b = ⊥ then ⊤ else (f a.toReal b.toReal : ℝ)

/-- The float operations of Generator.inl at a SIMD level.  `FS::Cos` and `FS::Sin` are not used for uniform grids. -/
def opsF (L : Level) (cos sin : EReal → EReal) : FOps EReal where
  conv i := (fl i : ℝ)
  fma a b c := if a = ⊤ ∨ a = ⊥ ∨ b = ⊤ ∨ b = ⊥ ∨ c = ⊤ ∨ c = ⊥ then ⊤ else (fma L a.toReal b.toReal c.toReal : ℝ)
  add := lift2 add
  mul := lift2 mul
  cos := cos
  sin := sin

/-- `gen->Gen( seed, x, y )` in one lane. -/
def gen2 (src : Src) (seed : Hash.I32) (x y : EReal) : EReal := (src seed [x.toReal, y.toReal] : ℝ)

/-- `gen->Gen( seed, x, y, z )` in one lane. -/
def gen3 (src : Src) (seed : Hash.I32) (x y z : EReal) : EReal := (src seed [x.toReal, y.toReal, z.toReal] : ℝ)

/-- `gen->Gen( seed, x, y, z, w )` in one lane. -/
def gen4 (src : Src) (seed : Hash.I32) (x y z w : EReal) : EReal := (src seed [x.toReal, y.toReal, z.toReal, w.toReal] : ℝ)

end
end FastNoise.F32
