import Verif.FloatPerlin
import Verif.Simplex
/-!
# 2D Simplex noise in binary32 arithmetic

`Simplex::Gen` 2D (include/FastNoise/Generators/Simplex.inl:7-63), operation by operation, every operation rounded (`F32.lean`, whose simplifications apply).
-/
namespace FastNoise.F32
open FastNoise.Hash FastNoise.Num FastNoise.Basic FastNoise.Lattice
open FastNoise.Gradient (Feat)
open FastNoise.Simplex (maskedAddI invMaskedAddI)

noncomputable section

/-- `float32v( kSkew2 )`: Simplex.inl:13, 17; the constants are computed in double precision by the compiler, then rounded. -/
def kSkew2F : ℝ := 12281775 / 2 ^ 25
/-- `float32v( kUnskew2 )`: Simplex.inl:14, 31 -/
def kUnskew2F : ℝ := -3545443 / 2 ^ 24
/-- `float32v( kUnskew2 + 1 )`: Simplex.inl:35, 36 -/
def kStep1F : ℝ := 13231773 / 2 ^ 24
/-- `float32v( kUnskew2 * 2 + 1 )`: Simplex.inl:37, 38 -/
def kStep2F : ℝ := 4843165 / 2 ^ 23
/-- `float32v( -4.0 * ( kRoot3 + 2.0 ) / ( kRoot3 + 3.0 ) )`: Simplex.inl:43 -/
def kFalloffMulF : ℝ := -13231773 / 2 ^ 22
/-- `float32v( -2.0 / 3.0 )`: Simplex.inl:44 -/
def kFalloffAddF : ℝ := -11184811 / 2 ^ 24

/-- `FS::MaskedIncrement( m, x )` -/
def maskedIncF (m : Bool) (x : ℝ) : ℝ := if m then add x 1 else x

/-- `falloff *= falloff; falloff *= falloff;`: Simplex.inl:50-52 -/
def pow4F (f : ℝ) : ℝ := mul (mul f f) (mul f f)

/-- `Simplex::Gen` 2D after `ScalePositions` and before `ScaleOutput`: Simplex.inl:17-58. -/
def simplexRaw2 (ft : Feat) (L : Level) (seed : I32) (x y : ℝ) : ℝ :=
  let skewDelta := mul kSkew2F (add x y)
  let xSkewed := add x skewDelta
  let ySkewed := add y skewDelta
  let xSkewedBase : ℝ := (⌊xSkewed⌋ : ℤ)
  let ySkewedBase : ℝ := (⌊ySkewed⌋ : ℤ)
  let dxSkewed := sub xSkewed xSkewedBase
  let dySkewed := sub ySkewed ySkewedBase
  let xPrimedBase := convertI32 xSkewedBase * primeX
  let yPrimedBase := convertI32 ySkewedBase * primeY
  let xGreaterEqualY := decide (dxSkewed ≥ dySkewed)
  let unskewDelta := mul kUnskew2F (add dxSkewed dySkewed)
  let dx0 := add dxSkewed unskewDelta
  let dy0 := add dySkewed unskewDelta
  let dx1 := sub (maskedIncF (!xGreaterEqualY) dx0) kStep1F
  let dy1 := sub (maskedIncF xGreaterEqualY dy0) kStep1F
  let dx2 := sub dx0 kStep2F
  let dy2 := sub dy0 kStep2F
  let falloff0 := fnma L dx0 dx0 (fnma L dy0 dy0 0.5)
  let falloff1 := fnma L dx1 dx1 (fnma L dy1 dy1 0.5)
  let falloff2 := add falloff0 (fma L unskewDelta kFalloffMulF kFalloffAddF)
  let falloff0 := pow4F (max falloff0 0)
  let falloff1 := pow4F (max falloff1 0)
  let falloff2 := pow4F (max falloff2 0)
  let g0 := dotPerlin2 ft L (hashPrimes seed [xPrimedBase, yPrimedBase]) dx0 dy0
  let g1 := dotPerlin2 ft L (hashPrimes seed [maskedAddI xGreaterEqualY xPrimedBase primeX, invMaskedAddI xGreaterEqualY yPrimedBase primeY]) dx1 dy1
  let g2 := dotPerlin2 ft L (hashPrimes seed [xPrimedBase + primeX, yPrimedBase + primeY]) dx2 dy2
  fma L g0 falloff0 (fma L g1 falloff1 (mul g2 falloff2))

/-- `Simplex::Gen` 2D: Simplex.inl:7-63. -/
def simplex2D (ft : Feat) (L : Level) (r : Range ℝ) (scale : ℝ) (seedOffset : I32) (seed : I32) (x y : ℝ) : ℝ :=
  scaleOutput L r (simplexRaw2 ft L (seed + seedOffset) (mul x (frequency scale)) (mul y (frequency scale))) (-0.0261208079755306243896484375) 0.0261208079755306243896484375

end
end FastNoise.F32
