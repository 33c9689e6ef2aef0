import Verif.Num
import Mathlib.Data.Int.Log
/-!
# Binary32 arithmetic as written

The other models take float arithmetic to be exact.  This one rounds: every `+ - *` of the source is the exact result rounded to the nearest binary32 number, ties to even,
which is what the library does when built with `FASTNOISE2_STRICT_FP` (src/CMakeLists.txt:97-103; otherwise the compiler may reorder the operations).

A float is a real number of the form `m * 2^e` (`Rep`).  Not modelled: values beyond the largest float (they become infinities), NaN and the sign of zero; subnormal numbers are modelled.

SIMD levels differ in whether the processor has fused multiply-add: `Level.fused`.
-/
namespace FastNoise.F32
open FastNoise.Num

noncomputable section

/-- The exponent of the last place of the binary32 numbers around `x`: 24 significant bits, but never below `2^-149`. -/
def lastPlace (x : ℝ) : ℤ := max (-149) (Int.log 2 |x| - 23)

/-- `x` rounded to binary32, nearest, ties to even (IEEE 754). -/
def fl (x : ℝ) : ℝ := roundEven (x / 2 ^ lastPlace x) * 2 ^ lastPlace x

/-- `x` is a binary32 number (of any size: overflow is not modelled). -/
def Rep (x : ℝ) : Prop := ∃ m e : ℤ, |m| ≤ 2 ^ 24 ∧ -149 ≤ e ∧ x = m * 2 ^ e

/-- What of the SIMD level matters for rounding: whether `FS::FMulAdd` rounds once or twice. -/
structure Level where
  fused : Bool

/-- `float32v + float32v` -/
def add (a b : ℝ) : ℝ := fl (a + b)
/-- `float32v - float32v` -/
def sub (a b : ℝ) : ℝ := fl (a - b)
/-- `float32v * float32v` -/
def mul (a b : ℝ) : ℝ := fl (a * b)
/-- `FS::FMulAdd( a, b, c )` -/
def fma (L : Level) (a b c : ℝ) : ℝ := if L.fused then fl (a * b + c) else add (mul a b) c
/-- `FS::FNMulAdd( a, b, c )` -/
def fnma (L : Level) (a b c : ℝ) : ℝ := if L.fused then fl (-(a * b) + c) else sub c (mul a b)

end
end FastNoise.F32
