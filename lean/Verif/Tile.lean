import Mathlib.Analysis.SpecialFunctions.Trigonometric.Bounds
import Mathlib.Analysis.Real.Pi.Bounds

/-!
# Geometry of `GenTileable2D` (Generator.inl:386-392, 400-406)

`C18_positions` (GridProps.lean) shows that output `(x, y)` is the noise at
`(cos xF * xFreq, cos yF * yFreq, sin xF * xFreq, sin yF * yFreq)` with `xF = x * xMul`, `yF = y * yMul`.  Here: what
these points are, over the reals (float rounding of the individual operations is not modelled; the literal is taken
with its exact float value).
-/

namespace FastNoise.Tile

/-- The value of the float literal `0.15915493667f` (Generator.inl:386): 10680707 / 2^26. -/
noncomputable def pi2Recip : ℝ := 10680707 / 67108864

/-- `xSizePi = (float)xSize * pi2Recip` (Generator.inl:387); the constant is a parameter. -/
noncomputable def sizePi (c : ℝ) (size : ℕ) : ℝ := size * c

/-- `xFreq = xSizePi * xStepSize` (Generator.inl:389). -/
noncomputable def freq (c : ℝ) (size : ℕ) (step : ℝ) : ℝ := sizePi c size * step

/-- `xMul = 1 / xSizePi` (Generator.inl:391). -/
noncomputable def mul (c : ℝ) (size : ℕ) : ℝ := 1 / sizePi c size

/-- The two coordinates contributed by one axis at sample `x` (Generator.inl:400-406):
`( Cos( x * mul ) * freq, Sin( x * mul ) * freq )`. -/
noncomputable def point (c : ℝ) (size : ℕ) (step : ℝ) (x : ℕ) : ℝ × ℝ :=
  (Real.cos (x * mul c size) * freq c size step, Real.sin (x * mul c size) * freq c size step)

end FastNoise.Tile
