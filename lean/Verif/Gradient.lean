import Verif.Hash
import Mathlib.Analysis.SpecialFunctions.Pow.Real
/-!
# Gradient dot products

Model of `GetGradientDotSimplex`, `GetGradientDotCommon` and `GetGradientDotPerlin`
(include/FastNoise/Generators/Utils.inl:33-219), with all their compile-time variants.

Simplifications: floats are real numbers (no rounding, no NaN/infinity), hence `FMulAdd( a, b, c )` is `a * b + c`; the
constants `kRoot2f`, `kRoot3f`, `kSkew4f` are the real numbers they approximate.  `f ^ Cast<float>( s )` with `s` either
`0` or `0x80000000` flips the sign of `f`.  The intrinsics are modelled by their documented lane semantics.
-/
namespace FastNoise.Gradient
open FastNoise.Hash

noncomputable section

/-- The feature flags tested by `if constexpr`, Utils.inl:38, 47, 65, 84, 124, 138, 167, 174, 196. -/
structure Feat where
  x86 : Bool
  sse41 : Bool
  avx : Bool
  avx2 : Bool
  avx512 : Bool

/-- `kRoot2`, Utils.inl:21 -/
def root2 : ℝ := Real.sqrt 2
/-- `kRoot3`, Utils.inl:22 -/
def root3 : ℝ := Real.sqrt 3
/-- `kSkew4`, Utils.inl:25 -/
def skew4 : ℝ := 1 / (Real.sqrt 5 + 1)

/-- `f ^ Cast<float>( s )`: flips the sign of `f` if the sign bit of `s` is set; used with `s` of the form `x << 31` only. -/
def xorSign (f : ℝ) (s : I32) : ℝ := if s.msb then -f else f
/-- `FS::SelectHighBit( i, a, b )`: `a` if the sign bit of `i` is set (FastSIMD). -/
def selectHighBit (i : I32) (a b : ℝ) : ℝ := if i.msb then a else b
/-- `FS::Select( m, a, b )` -/
def select (m : Bool) (a b : ℝ) : ℝ := if m then a else b
/-- `FS::MaskedAdd( m, a, b )`: `a + b` if `m` else `a`. -/
def maskedAdd (m : Bool) (a b : ℝ) : ℝ := if m then a + b else a
/-- `FS::InvMaskedAdd( m, a, b )`: `a + b` unless `m`. -/
def invMaskedAdd (m : Bool) (a b : ℝ) : ℝ := if m then a else a + b
/-- `_mm512_permutexvar_ps( idx, table )`: lane `idx mod 16` of a 16 element table. -/
def perm16 (idx : I32) (t : List ℝ) : ℝ := t.getD (idx.toNat % 16) 0
/-- `_mm256_permutevar8x32_ps( table, idx )`: lane `idx mod 8` of an 8 element table. -/
def perm8 (idx : I32) (t : List ℝ) : ℝ := t.getD (idx.toNat % 8) 0
/-- `_mm512_permutex2var_ps( a, idx, b )`: lane `idx mod 32` of the concatenation of two 16 element tables. -/
def perm32 (a : List ℝ) (idx : I32) (b : List ℝ) : ℝ := (a ++ b).getD (idx.toNat % 32) 0
/-- `FS::FMulAdd`, exact. -/
def fma (a b c : ℝ) : ℝ := a * b + c

/-- `GetGradientDotSimplex` 2D: Utils.inl:33-76. -/
def dotSimplex2 (ft : Feat) (hash31 : I32) (fX fY : ℝ) : ℝ :=
  let index := (hash31 >>> 1) * 3
  if ft.avx512 then
    let index := index.sshiftRight 28
    let gX := perm16 index [root3, -root3, 1, -1, root3, -root3, -1, 1, 2, -2, 0, 0, 0, 0, 0, 0]
    let gY := perm16 index [1, -1, root3, -root3, -1, 1, root3, -root3, 0, 0, 2, -2, 0, 0, 0, 0]
    fma gX fX (fY * gY)
  else if ft.avx2 then
    let finalSign := index.sshiftRight 28 <<< 31
    let index := index.sshiftRight 29
    let gX := perm8 index [root3, 1, root3, -1, 2, 0, 0, 0]
    let gY := perm8 index [1, root3, -1, root3, 0, 2, 0, 0]
    xorSign (fma gX fX (fY * gY)) finalSign
  else
    let u := selectHighBit (index <<< 2) fY fX
    let v := selectHighBit (index <<< 2) fX fY
    let a := u * selectHighBit index 2 root3
    let b := xorSign v (index.sshiftRight 30 <<< 31)
    if ft.x86 then
      -- mask from `index >> 31`
      xorSign (invMaskedAdd (index.sshiftRight 31).msb a b) (index.sshiftRight 28 <<< 31)
    else
      xorSign (maskedAdd (BitVec.sle 0 index) a b) (index.sshiftRight 28 <<< 31)

/-- `tableX` .. `tableW`, Utils.inl:88-91. -/
def tableX : List ℝ := [skew4 + 1, skew4, skew4, skew4, -1, 1, 0, 0, -1, 0, 1, 0, -1, 0, 0, 1]
@[inherit_doc tableX] def tableY : List ℝ := [skew4, skew4 + 1, skew4, skew4, 1, -1, 0, 0, 0, -1, 0, 1, 0, -1, 1, 0]
@[inherit_doc tableX] def tableZ : List ℝ := [skew4, skew4, skew4 + 1, skew4, 0, 0, -1, 1, 1, 0, -1, 0, 0, 1, -1, 0]
@[inherit_doc tableX] def tableW : List ℝ := [skew4, skew4, skew4, skew4 + 1, 0, 0, 1, -1, 0, 1, 0, -1, 1, 0, 0, -1]

/-- `FS::MaskedIncrement` / `FS::MaskedDecrement` nested as in Utils.inl:112-115. -/
def incDec (inc dec : Bool) (n : ℝ) : ℝ :=
  let d := if dec then n - 1 else n
  if inc then d + 1 else d

/-- The gradient selected by the non-AVX512 4D code: Utils.inl:102-115; `index` has [0,20) in its upper five bits. -/
def simplexGrad4 (index : I32) : ℝ × ℝ × ℝ × ℝ :=
  let indexA := index &&& (0x03 <<< 27)
  let indexB := index.sshiftRight 2 &&& (0x07 <<< 27)
  let indexB := indexB ^^^ indexA
  let extra := BitVec.sle (0x04 <<< 27) indexB
  let equal := indexA == indexB
  let indexA := indexA ||| (if equal then -1 else 0)
  let neutral : ℝ := if equal || extra then (if extra then skew4 * -1 else skew4) else 0
  (incDec (indexB == 0 <<< 27) (indexA == 0 <<< 27) neutral,
   incDec (indexB == 1 <<< 27) (indexA == 1 <<< 27) neutral,
   incDec (indexB == 2 <<< 27) (indexA == 2 <<< 27) neutral,
   incDec (indexB == 3 <<< 27) (indexA == 3 <<< 27) neutral)

/-- `GetGradientDotSimplex` 4D: Utils.inl:78-119. -/
def dotSimplex4 (ft : Feat) (hash31 : I32) (fX fY fZ fW : ℝ) : ℝ :=
  let hashShifted := hash31 >>> 2
  let index := hashShifted * 5
  if ft.avx512 then
    let index := index >>> 27
    let gX := perm32 tableX index (tableX.map (- ·))
    let gY := perm32 tableY index (tableY.map (- ·))
    let gZ := perm32 tableZ index (tableZ.map (- ·))
    let gW := perm32 tableW index (tableW.map (- ·))
    fma gW fW (fma gZ fZ (fma gY fY (gX * fX)))
  else
    let g := simplexGrad4 index
    fma g.2.2.2 fW (fma g.2.2.1 fZ (fma g.2.1 fY (g.1 * fX)))

/-- `GetGradientDotCommon`: Utils.inl:121-159. -/
def dotCommon (ft : Feat) (hash : I32) (fX fY fZ : ℝ) : ℝ :=
  if ft.avx512 then
    let gX := perm16 hash [1, -1, 1, -1, 1, -1, 1, -1, 0, 0, 0, 0, 1, 0, -1, 0]
    let gY := perm16 hash [1, 1, -1, -1, 0, 0, 0, 0, 1, -1, 1, -1, 1, -1, 1, -1]
    let gZ := perm16 hash [0, 0, 0, 0, 1, 1, -1, -1, 1, 1, -1, -1, 0, 1, 0, -1]
    fma gX fX (fma fY gY (fZ * gZ))
  else
    let hasha13 := hash &&& 13
    let gt7 := if ft.sse41 then (hash <<< 28).msb else BitVec.slt 7 hasha13
    let u := select gt7 fY fX
    let v := select (hasha13 == 12) fX fZ
    let v := select (BitVec.slt hasha13 2) fY v
    xorSign u (hash <<< 31) + xorSign v (hash.sshiftRight 1 <<< 31)

/-- `GetGradientDotPerlin` 2D: Utils.inl:161-191. -/
def dotPerlin2 (ft : Feat) (hash : I32) (fX fY : ℝ) : ℝ :=
  if ft.avx512 then
    let gX := perm16 hash [1 + root2, -1 - root2, 1 + root2, -1 - root2, 1, -1, 1, -1, 1 + root2, -1 - root2, 1 + root2, -1 - root2, 1, -1, 1, -1]
    let gY := perm16 hash [1, 1, -1, -1, 1 + root2, 1 + root2, -1 - root2, -1 - root2, 1, 1, -1, -1, 1 + root2, 1 + root2, -1 - root2, -1 - root2]
    fma gX fX (fY * gY)
  else if ft.avx2 then
    let gX := perm8 hash [1 + root2, -1 - root2, 1 + root2, -1 - root2, 1, -1, 1, -1]
    let gY := perm8 hash [1, 1, -1, -1, 1 + root2, 1 + root2, -1 - root2, -1 - root2]
    fma gX fX (fY * gY)
  else
    let fX := xorSign fX (hash <<< 31)
    let fY := xorSign fY (hash.sshiftRight 1 <<< 31)
    let u := selectHighBit (hash <<< 29) fY fX
    let v := selectHighBit (hash <<< 29) fX fY
    fma (1 + root2) u v

/-- `GetGradientDotPerlin` 4D: Utils.inl:193-219. -/
def dotPerlin4 (ft : Feat) (hash : I32) (fX fY fZ fW : ℝ) : ℝ :=
  if ft.avx512 then
    let gX := perm32 [0, 0, 0, 0, 0, 0, 0, 0, 1, -1, 1, -1, 1, -1, 1, -1] hash [1, -1, 1, -1, 1, -1, 1, -1, 1, -1, 1, -1, 1, -1, 1, -1]
    let gY := perm32 [1, -1, 1, -1, 1, -1, 1, -1, 0, 0, 0, 0, 0, 0, 0, 0] hash [1, 1, -1, -1, 1, 1, -1, -1, 1, 1, -1, -1, 1, 1, -1, -1]
    let gZ := perm32 [1, 1, -1, -1, 1, 1, -1, -1, 1, 1, -1, -1, 1, 1, -1, -1] hash [0, 0, 0, 0, 0, 0, 0, 0, 1, 1, 1, 1, -1, -1, -1, -1]
    let gW := perm32 [1, 1, 1, 1, -1, -1, -1, -1, 1, 1, 1, 1, -1, -1, -1, -1] hash [1, 1, 1, 1, -1, -1, -1, -1, 0, 0, 0, 0, 0, 0, 0, 0]
    fma gX fX (fma fY gY (fma fZ gZ (fW * gW)))
  else
    let p := hash &&& (3 <<< 3)
    let a := select (BitVec.slt 0 p) fX fY
    let b := selectHighBit (hash <<< 27) fY fZ
    let c := select (BitVec.slt (2 <<< 3) p) fZ fW
    xorSign a (hash <<< 31) + xorSign b (hash.sshiftRight 1 <<< 31) + xorSign c (hash.sshiftRight 2 <<< 31)

end
end FastNoise.Gradient
