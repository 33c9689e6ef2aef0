import Verif.Gradient
/-!
# Vector contributions of the simplex domain warps

Model of the functions that add the contribution of one grid point to the warp vector
(include/FastNoise/Generators/DomainWarpSimplex.inl:6-724): the gradient outer product and the orthogonal gradient matrix, in 2, 3 and 4
dimensions, with all their compile-time variants.

The idealisation is that of `Verif.Gradient`; the decimal constants `2.224744871391589f` and `-0.224744871391589f` (DomainWarpSimplex.inl:240-241)
are the real numbers 1 ± √6/2 they approximate, those of the 4D matrix (321-330) are the decimal fractions themselves.
-/
namespace FastNoise.WarpGrad
open FastNoise.Hash FastNoise.Gradient

noncomputable section

/-- `kSkew2f`, Utils.inl:30. -/
def skew2 : ℝ := 1 / (√3 + 1)
/-- `FS::FMulSub`, exact. -/
def fms (a b c : ℝ) : ℝ := a * b - c
/-- `FS::Masked( m, a )` -/
def masked (m : Bool) (a : ℝ) : ℝ := if m then a else 0
/-- `FS::MaskedIncrement( m, a )` -/
def maskedIncrement (m : Bool) (a : ℝ) : ℝ := if m then a + 1 else a
/-- `FS::MaskedDecrement( m, a )` -/
def maskedDecrement (m : Bool) (a : ℝ) : ℝ := if m then a - 1 else a

/-- `FS::Constant<float>( kRoot3f, -kRoot3f, .. )`: DomainWarpSimplex.inl:18, 23. -/
def outer2X : List ℝ := [root3, -root3, 1, -1, root3, -root3, -1, 1, 2, -2, 0, 0, 0, 0, 0, 0]
/-- `FS::Constant<float>( 1, -1, kRoot3f, .. )`: DomainWarpSimplex.inl:19, 24. -/
def outer2Y : List ℝ := [1, -1, root3, -root3, -1, 1, root3, -root3, 0, 0, 2, -2, 0, 0, 0, 0]
/-- DomainWarpSimplex.inl:32, 37. -/
def outer2X8 : List ℝ := [root3, 1, root3, -1, 2, 0, 0, 0]
/-- DomainWarpSimplex.inl:33, 38. -/
def outer2Y8 : List ℝ := [1, root3, -1, root3, 0, 2, 0, 0]

/-- `ApplyGradientOuterProductVectorProductSimplex` 2D: DomainWarpSimplex.inl:7-61.  The result are the new values of `valueX`, `valueY`. -/
def outer2 (ft : Feat) (hash31 : I32) (fX fY multiplier : ℝ) (value : ℝ × ℝ) : ℝ × ℝ :=
  let hashShifted := hash31 >>> 1
  let indexGradient := hashShifted * 3
  let indexOuterVector := (hashShifted * 0xAAAAAAAB#32) &&& 0xC0000003#32
  if ft.avx512 then
    let indexGradient := indexGradient.sshiftRight 28
    let indexOuterVector := indexOuterVector ||| indexOuterVector.sshiftRight 28
    let gX := perm16 indexGradient outer2X
    let gY := perm16 indexGradient outer2Y
    let multiplier := multiplier * fma fY gY (fX * gX)
    (fma multiplier (perm16 indexOuterVector outer2X) value.1,
     fma multiplier (perm16 indexOuterVector outer2Y) value.2)
  else if ft.avx then
    let finalSign := (indexGradient.sshiftRight 28 ^^^ indexOuterVector) <<< 31
    let indexGradient := indexGradient.sshiftRight 29
    let indexOuterVector := indexOuterVector.sshiftRight 1 ||| indexOuterVector.sshiftRight 29
    let gX := perm8 indexGradient outer2X8
    let gY := perm8 indexGradient outer2Y8
    let multiplier := multiplier * xorSign (fma fY gY (fX * gX)) finalSign
    (fma multiplier (perm8 indexOuterVector outer2X8) value.1,
     fma multiplier (perm8 indexOuterVector outer2Y8) value.2)
  else
    let u := selectHighBit (indexGradient <<< 2) fY fX
    let v := selectHighBit (indexGradient <<< 2) fX fY
    let a := u * selectHighBit indexGradient 2 root3
    let b := xorSign v (indexGradient.sshiftRight 30 <<< 31)
    let multiplier := multiplier * xorSign (maskedAdd (BitVec.sle 0 indexGradient) a b) ((indexGradient.sshiftRight 28 ^^^ indexOuterVector) <<< 31)
    let a := multiplier * selectHighBit indexOuterVector 2 root3
    let b := xorSign (masked (BitVec.sle 0 indexOuterVector) multiplier) (indexOuterVector.sshiftRight 30 <<< 31)
    (value.1 + selectHighBit (indexOuterVector <<< 30) b a,
     value.2 + selectHighBit (indexOuterVector <<< 30) a b)

/-- DomainWarpSimplex.inl:72-74, 78-80. -/
def outer3X : List ℝ := [1, -1, 1, -1, 1, -1, 1, -1, 0, 0, 0, 0, 0, 0, 0, 0]
@[inherit_doc outer3X] def outer3Y : List ℝ := [1, 1, -1, -1, 0, 0, 0, 0, 1, -1, 1, -1, 0, 0, 0, 0]
@[inherit_doc outer3X] def outer3Z : List ℝ := [0, 0, 0, 0, 1, 1, -1, -1, 1, 1, -1, -1, 0, 0, 0, 0]

/-- `ApplyGradientOuterProductVectorProductCommon`: DomainWarpSimplex.inl:63-116. -/
def outer3 (ft : Feat) (hash31 : I32) (fX fY fZ multiplier : ℝ) (value : ℝ × ℝ × ℝ) : ℝ × ℝ × ℝ :=
  let hashShifted := hash31 >>> 1
  let indexGradient := (hashShifted * 3) >>> 28
  let indexOuterVector := (hashShifted * 0xAAAAAAAB#32) &&& 0xC0000003#32
  let indexOuterVector := indexOuterVector ||| indexOuterVector.sshiftRight 28
  if ft.avx512 then
    let gX := perm16 indexGradient outer3X
    let gY := perm16 indexGradient outer3Y
    let gZ := perm16 indexGradient outer3Z
    let multiplier := multiplier * fma gZ fZ (fma fY gY (fX * gX))
    (fma multiplier (perm16 indexOuterVector outer3X) value.1,
     fma multiplier (perm16 indexOuterVector outer3Y) value.2.1,
     fma multiplier (perm16 indexOuterVector outer3Z) value.2.2)
  else
    let u := if ft.sse41 then selectHighBit (indexGradient <<< 28) fY fX else select (BitVec.sle 8 indexGradient) fY fX
    let v := select (BitVec.sle 4 indexGradient) fZ fY
    let multiplier := multiplier * (xorSign u (indexGradient <<< 31) + xorSign v (indexGradient.sshiftRight 1 <<< 31))
    let indexOuterVector := indexOuterVector &&& 0xF
    let signed0 := xorSign multiplier (indexOuterVector <<< 31)
    let signed1 := xorSign multiplier (indexOuterVector.sshiftRight 1 <<< 31)
    let notYZ := BitVec.slt indexOuterVector 8
    let notXY := BitVec.sle 4 indexOuterVector
    (maskedAdd notYZ value.1 signed0,
     invMaskedAdd (notYZ && notXY) value.2.1 (select notXY signed0 signed1),
     maskedAdd notXY value.2.2 signed1)

/-- `ApplyGradientOuterProductVectorProductSimplex` 4D: DomainWarpSimplex.inl:119-191; the gradient selection of the generic variant (151-164,
170-183) is the code of Utils.inl:102-115. -/
def outer4 (ft : Feat) (hash : I32) (fX fY fZ fW multiplier : ℝ) (value : ℝ × ℝ × ℝ × ℝ) : ℝ × ℝ × ℝ × ℝ :=
  let hashShifted := hash >>> 2
  let indexGradient := hashShifted * 5
  let indexOuterVector := hashShifted * 0xCCCCCCCD#32
  let indexOuterVector := (indexOuterVector &&& 0xE0000003#32) * (3 ||| (1 <<< 27))
  if ft.avx512 then
    let indexGradient := indexGradient >>> 27
    let indexOuterVector := indexOuterVector >>> 27
    let gX := perm32 tableX indexGradient (tableX.map (- ·))
    let gY := perm32 tableY indexGradient (tableY.map (- ·))
    let gZ := perm32 tableZ indexGradient (tableZ.map (- ·))
    let gW := perm32 tableW indexGradient (tableW.map (- ·))
    let multiplier := multiplier * fma gW fW (fma gZ fZ (fma gY fY (gX * fX)))
    (fma multiplier (perm32 tableX indexOuterVector (tableX.map (- ·))) value.1,
     fma multiplier (perm32 tableY indexOuterVector (tableY.map (- ·))) value.2.1,
     fma multiplier (perm32 tableZ indexOuterVector (tableZ.map (- ·))) value.2.2.1,
     fma multiplier (perm32 tableW indexOuterVector (tableW.map (- ·))) value.2.2.2)
  else
    let g := simplexGrad4 indexGradient
    let multiplier := multiplier * fma g.2.2.2 fW (fma g.2.2.1 fZ (fma g.2.1 fY (g.1 * fX)))
    let g := simplexGrad4 indexOuterVector
    (fma multiplier g.1 value.1, fma multiplier g.2.1 value.2.1, fma multiplier g.2.2.1 value.2.2.1, fma multiplier g.2.2.2 value.2.2.2)

/-- `ApplyOrthogonalGradientMatrixVectorProductSimplex` 2D: DomainWarpSimplex.inl:194-235. -/
def orth2 (ft : Feat) (hash31 : I32) (fX fY multiplier : ℝ) (value : ℝ × ℝ) : ℝ × ℝ :=
  let index := (hash31 >>> 1) * 3
  let g : ℝ × ℝ :=
    if ft.avx512 then
      let index := index >>> 28
      (perm16 index [skew2, -skew2, skew2, -skew2, skew2 + 1, -skew2 - 1, skew2 + 1, -skew2 - 1, 1, -1, 1, -1, 0, 0, 0, 0],
       perm16 index [skew2 + 1, skew2 + 1, -skew2 - 1, -skew2 - 1, skew2, skew2, -skew2, -skew2, 1, 1, -1, -1, 0, 0, 0, 0])
    else if ft.avx2 then
      let signX := index.sshiftRight 28 <<< 31
      let index := index >>> 29
      (xorSign (perm8 index [skew2, skew2, skew2 + 1, skew2 + 1, 1, 1, 0, 0]) signX,
       perm8 index [skew2 + 1, -skew2 - 1, skew2, -skew2, 1, -1, 0, 0])
    else
      let ofThree := index >>> 30
      let signX := index.sshiftRight 28 <<< 31
      let signY := index.sshiftRight 29 <<< 31
      let m := masked (BitVec.sle 0 index) skew2
      (xorSign (maskedIncrement (ofThree != 0) m) signX,
       xorSign (maskedIncrement (ofThree != 1) m) signY)
  let valueX := fma multiplier (fma fY g.2 (fX * g.1)) value.1
  let multiplier := xorSign multiplier (hash31 <<< 31)
  (valueX, fma multiplier (fms fY g.1 (fX * g.2)) value.2)

/-- `kComponentA` .. `kComponentF`: DomainWarpSimplex.inl:240-244. -/
def kA : ℝ := 1 + √6 / 2
@[inherit_doc kA] def kB : ℝ := 1 - √6 / 2
@[inherit_doc kA] def kC : ℝ := -1
@[inherit_doc kA] def kDE : ℝ := 1
@[inherit_doc kA] def kF : ℝ := 2

/-- `tableA_gX` .. `tableC_gZ`: DomainWarpSimplex.inl:258-268. -/
def tableA_gX : List ℝ := [kA, kA, kC, kC, -kA, -kA, kC, kC, kA, kA, kC, kC, -kA, -kA, kC, kC]
@[inherit_doc tableA_gX] def tableA_gY : List ℝ := [kC, kB, kA, kA, kC, kB, -kA, -kA, kC, -kB, kA, kA, kC, -kB, -kA, -kA]
@[inherit_doc tableA_gX] def tableA_gZ : List ℝ := [kB, kC, kB, kB, kB, kC, kB, kB, -kB, kC, -kB, -kB, -kB, kC, -kB, -kB]
@[inherit_doc tableA_gX] def tableB_gX : List ℝ := [kB, kB, kC, kC, -kB, -kB, kC, kC, kB, kB, kC, kC, -kB, -kB, kC, kC]
@[inherit_doc tableA_gX] def tableB_gY : List ℝ := [kC, kA, kB, kB, kC, kA, -kB, -kB, kC, -kA, kB, kB, kC, -kA, -kB, -kB]
@[inherit_doc tableA_gX] def tableB_gZ : List ℝ := [kA, kC, kA, kA, kA, kC, kA, kA, -kA, kC, -kA, -kA, -kA, kC, -kA, -kA]
@[inherit_doc tableA_gX] def tableC_gX : List ℝ := [kDE, kDE, kF, kF, kC, kC, kF, kF, kDE, kDE, kF, kF, kC, kC, kF, kF]
@[inherit_doc tableA_gX] def tableC_gY : List ℝ := [kF, kDE, kDE, kDE, kF, kDE, kC, kC, kF, kC, kDE, kDE, kF, kC, kC, kC]
@[inherit_doc tableA_gX] def tableC_gZ : List ℝ := [kDE, kF, kDE, kDE, kDE, kF, kDE, kDE, kC, kF, kC, kC, kC, kF, kC, kC]

/-- `ApplyOrthogonalGradientMatrixVectorProductCommon`: DomainWarpSimplex.inl:238-316.  `_mm512_rol_epi32( a, 2 )` rotates by two bits. -/
def orth3 (ft : Feat) (hash31 : I32) (fX fY fZ multiplier : ℝ) (value : ℝ × ℝ × ℝ) : ℝ × ℝ × ℝ :=
  let hashShifted := hash31 >>> 1
  let indexFacetBasisWithPermute2 := hashShifted * 0xAAAAAAAB#32
  let indexPermutation2HighBit := indexFacetBasisWithPermute2 <<< 29
  let indexPermutation3 := (hashShifted * 3) >>> 30
  let finalSign := hash31 <<< 31
  let v : ℝ × ℝ × ℝ :=
    if ft.avx512 then
      let i := indexFacetBasisWithPermute2.rotateLeft 2
      (fma (perm32 tableA_gZ i tableB_gZ) fZ (fma fY (perm32 tableA_gY i tableB_gY) (fX * perm32 tableA_gX i tableB_gX)),
       fma (perm32 tableB_gZ i tableA_gZ) fZ (fma fY (perm32 tableB_gY i tableA_gY) (fX * perm32 tableB_gX i tableA_gX)),
       fma (perm16 i tableC_gZ) fZ (fma fY (perm16 i tableC_gY) (fX * perm16 i tableC_gX)))
    else
      let sign0 := indexFacetBasisWithPermute2 <<< 31
      let sign1 := (indexFacetBasisWithPermute2 <<< 30) &&& (1 <<< 31)
      let notYZ := indexFacetBasisWithPermute2
      let notXY := indexFacetBasisWithPermute2 <<< 1
      let valueA_gX := selectHighBit notYZ kC (xorSign kA sign0)
      let valueA_gY := selectHighBit (notYZ ||| notXY) (selectHighBit notXY (xorSign kB sign1) (xorSign kA sign0)) kC
      let valueA_gZ := selectHighBit notXY kC (xorSign kB sign1)
      let valueA := fma valueA_gZ fZ (fma fY valueA_gY (fX * valueA_gX))
      let valueB_gX := selectHighBit notYZ kC (xorSign kB sign0)
      let valueB_gY := selectHighBit (notYZ ||| notXY) (selectHighBit notXY (xorSign kA sign1) (xorSign kB sign0)) kC
      let valueB_gZ := selectHighBit notXY kC (xorSign kA sign1)
      let valueB := fma valueB_gZ fZ (fma fY valueB_gY (fX * valueB_gX))
      let valueC_gX := selectHighBit notYZ kF (xorSign kDE sign0)
      let valueC_gY := selectHighBit (notYZ ||| notXY) (selectHighBit notXY (xorSign kDE sign1) (xorSign kDE sign0)) kF
      let valueC_gZ := selectHighBit notXY kF (xorSign kDE sign1)
      let valueC := fma valueC_gZ fZ (fma fY valueC_gY (fX * valueC_gX))
      (selectHighBit indexPermutation2HighBit valueB valueA, selectHighBit indexPermutation2HighBit valueA valueB, valueC)
  let valueAB := v.1
  let valueBA := v.2.1
  let valueC := v.2.2
  let multiplier := xorSign multiplier finalSign
  (fma multiplier (select (indexPermutation3 == 0) valueC valueAB) value.1,
   fma multiplier (select (indexPermutation3 == 1) valueC (select (indexPermutation3 == 2) valueBA valueAB)) value.2.1,
   fma multiplier (select (indexPermutation3 == 2) valueC valueBA) value.2.2)

/-! ## The 4D orthogonal gradient matrix -/

/-- `kComponentPairwiseIndexedNegativeAB`: DomainWarpSimplex.inl:321. -/
def kNegAB : ℝ := -0.375999676691291
/-- `kComponentPairwiseUnindexedFillerAB`: DomainWarpSimplex.inl:322. -/
def kFillAB : ℝ := 0.222726847849776
/-- `kComponentPairwiseIndexedPositiveD`: DomainWarpSimplex.inl:323. -/
def kPosD : ℝ := -skew4
/-- `kComponentPairwiseUnindexedD`: DomainWarpSimplex.inl:324. -/
def kUnD : ℝ := skew4
/-- `kDeltaPairwiseToSingleAB`: DomainWarpSimplex.inl:326. -/
def dSingleAB : ℝ := -0.124000323308709
/-- `kDeltaPairwiseToSingleD`: DomainWarpSimplex.inl:327. -/
def dSingleD : ℝ := 0.190983005625053
/-- `kDeltaSingleToExtra`: DomainWarpSimplex.inl:328. -/
def dExtra : ℝ := skew4
/-- `kDeltaPairwiseABToC`: DomainWarpSimplex.inl:329. -/
def dABToC : ℝ := 0.437016024448821
/-- `kDeltaUnindexedFillerToDiagonal`: DomainWarpSimplex.inl:330. -/
def dDiag : ℝ := -root2

/-- `sIdxABC` .. `eFillD`: DomainWarpSimplex.inl:332-356. -/
def sIdxABC : ℝ := kNegAB + dSingleAB
@[inherit_doc sIdxABC] def sDiagABC : ℝ := kFillAB + dSingleAB + dDiag
@[inherit_doc sIdxABC] def sFillABC : ℝ := kFillAB + dSingleAB
@[inherit_doc sIdxABC] def sIdxD : ℝ := kPosD + dSingleD - 1
@[inherit_doc sIdxABC] def sFillD : ℝ := kUnD + dSingleD
@[inherit_doc sIdxABC] def pIdxPosAB : ℝ := kNegAB + 1
@[inherit_doc sIdxABC] def pIdxNegAB : ℝ := kNegAB
@[inherit_doc sIdxABC] def pFillAB : ℝ := kFillAB
@[inherit_doc sIdxABC] def pDiagAB : ℝ := kFillAB + dDiag
@[inherit_doc sIdxABC] def pIdxPosC : ℝ := kNegAB + dABToC + 1
@[inherit_doc sIdxABC] def pIdxNegC : ℝ := kNegAB + dABToC
@[inherit_doc sIdxABC] def pFillC : ℝ := kFillAB + dABToC
@[inherit_doc sIdxABC] def pIdxPosD : ℝ := kPosD
@[inherit_doc sIdxABC] def pIdxNegD : ℝ := kPosD - 1
@[inherit_doc sIdxABC] def pFillD : ℝ := kUnD
@[inherit_doc sIdxABC] def eIdxABC : ℝ := kNegAB + (dSingleAB + dExtra) + 1
@[inherit_doc sIdxABC] def eDiagABC : ℝ := kFillAB + (dSingleAB + dExtra) + dDiag
@[inherit_doc sIdxABC] def eFillABC : ℝ := kFillAB + (dSingleAB + dExtra)
@[inherit_doc sIdxABC] def eIdxD : ℝ := kPosD + (dSingleD + dExtra)
@[inherit_doc sIdxABC] def eFillD : ℝ := kUnD + (dSingleD + dExtra)

/-- A column of the matrix: the factors of one offset coordinate in `valueA`, `valueB`, `valueC`, `valueD`. -/
abbrev Col := ℝ × ℝ × ℝ × ℝ

/-- The tables of the AVX512 variant: DomainWarpSimplex.inl:370-461. -/
def cols512 (indexBasis : I32) : Col × Col × Col × Col :=
  let i := indexBasis.sshiftRight 27
  let e (a b c d : ℝ) : List ℝ := [a, b, c, d, 0, 0, 0, 0, 0, 0, 0, 0, 0, 0, 0, 0]
  ((perm32 [sIdxABC, sDiagABC, sDiagABC, sDiagABC, pIdxPosAB, pIdxNegAB, pDiagAB, pDiagAB, pIdxPosAB, pDiagAB, pIdxNegAB, pDiagAB, pIdxPosAB, pDiagAB, pDiagAB, pIdxNegAB] i
      (e eIdxABC eDiagABC eDiagABC eDiagABC),
    perm32 [sIdxABC, sFillABC, sFillABC, sFillABC, pIdxPosAB, pIdxNegAB, pFillAB, pFillAB, pIdxPosAB, pFillAB, pIdxNegAB, pFillAB, pIdxPosAB, pFillAB, pFillAB, pIdxNegAB] i
      (e eIdxABC eFillABC eFillABC eFillABC),
    perm32 [sIdxABC, sFillABC, sFillABC, sFillABC, pIdxPosC, pIdxNegC, pFillC, pFillC, pIdxPosC, pFillC, pIdxNegC, pFillC, pIdxPosC, pFillC, pFillC, pIdxNegC] i
      (e eIdxABC eFillABC eFillABC eFillABC),
    perm32 [sIdxD, sFillD, sFillD, sFillD, pIdxPosD, pIdxNegD, pFillD, pFillD, pIdxPosD, pFillD, pIdxNegD, pFillD, pIdxPosD, pFillD, pFillD, pIdxNegD] i
      (e eIdxD eFillD eFillD eFillD)),
   (perm32 [sDiagABC, sIdxABC, sFillABC, sFillABC, pIdxNegAB, pIdxPosAB, pFillAB, pFillAB, pDiagAB, pIdxPosAB, pDiagAB, pIdxNegAB, pDiagAB, pIdxPosAB, pIdxNegAB, pDiagAB] i
      (e eDiagABC eIdxABC eFillABC eFillABC),
    perm32 [sFillABC, sIdxABC, sDiagABC, sDiagABC, pIdxNegAB, pIdxPosAB, pDiagAB, pDiagAB, pFillAB, pIdxPosAB, pFillAB, pIdxNegAB, pFillAB, pIdxPosAB, pIdxNegAB, pFillAB] i
      (e eFillABC eIdxABC eDiagABC eDiagABC),
    perm32 [sFillABC, sIdxABC, sFillABC, sFillABC, pIdxNegC, pIdxPosC, pFillC, pFillC, pFillC, pIdxPosC, pFillC, pIdxNegC, pFillC, pIdxPosC, pIdxNegC, pFillC] i
      (e eFillABC eIdxABC eFillABC eFillABC),
    perm32 [sFillD, sIdxD, sFillD, sFillD, pIdxNegD, pIdxPosD, pFillD, pFillD, pFillD, pIdxPosD, pFillD, pIdxNegD, pFillD, pIdxPosD, pIdxNegD, pFillD] i
      (e eFillD eIdxD eFillD eFillD)),
   (perm32 [sFillABC, sFillABC, sIdxABC, sFillABC, pDiagAB, pDiagAB, pIdxPosAB, pIdxNegAB, pIdxNegAB, pFillAB, pIdxPosAB, pFillAB, pFillAB, pIdxNegAB, pIdxPosAB, pFillAB] i
      (e eFillABC eFillABC eIdxABC eFillABC),
    perm32 [sDiagABC, sDiagABC, sIdxABC, sFillABC, pFillAB, pFillAB, pIdxPosAB, pIdxNegAB, pIdxNegAB, pDiagAB, pIdxPosAB, pDiagAB, pDiagAB, pIdxNegAB, pIdxPosAB, pDiagAB] i
      (e eDiagABC eDiagABC eIdxABC eFillABC),
    perm32 [sFillABC, sFillABC, sIdxABC, sDiagABC, pFillC, pFillC, pIdxPosC, pIdxNegC, pIdxNegC, pFillC, pIdxPosC, pFillC, pFillC, pIdxNegC, pIdxPosC, pFillC] i
      (e eFillABC eFillABC eIdxABC eDiagABC),
    perm32 [sFillD, sFillD, sIdxD, sFillD, pFillD, pFillD, pIdxPosD, pIdxNegD, pIdxNegD, pFillD, pIdxPosD, pFillD, pFillD, pIdxNegD, pIdxPosD, pFillD] i
      (e eFillD eFillD eIdxD eFillD)),
   (perm32 [sFillABC, sFillABC, sFillABC, sIdxABC, pFillAB, pFillAB, pIdxNegAB, pIdxPosAB, pFillAB, pIdxNegAB, pFillAB, pIdxPosAB, pIdxNegAB, pFillAB, pFillAB, pIdxPosAB] i
      (e eFillABC eFillABC eFillABC eIdxABC),
    perm32 [sFillABC, sFillABC, sFillABC, sIdxABC, pDiagAB, pDiagAB, pIdxNegAB, pIdxPosAB, pDiagAB, pIdxNegAB, pDiagAB, pIdxPosAB, pIdxNegAB, pDiagAB, pDiagAB, pIdxPosAB] i
      (e eFillABC eFillABC eFillABC eIdxABC),
    perm32 [sDiagABC, sDiagABC, sDiagABC, sIdxABC, pFillC, pFillC, pIdxNegC, pIdxPosC, pFillC, pIdxNegC, pFillC, pIdxPosC, pIdxNegC, pFillC, pFillC, pIdxPosC] i
      (e eDiagABC eDiagABC eDiagABC eIdxABC),
    perm32 [sFillD, sFillD, sFillD, sIdxD, pFillD, pFillD, pIdxNegD, pIdxPosD, pFillD, pIdxNegD, pFillD, pIdxPosD, pIdxNegD, pFillD, pFillD, pIdxPosD] i
      (e eFillD eFillD eFillD eIdxD)))

/-- Which of `valueA`, `valueB`, `valueC` take their diagonal element in column `c`, given `indexedCounter` (or `maskedIndexedCounter`):
DomainWarpSimplex.inl:485, 508-509, 529-531, 551-552 and 592, 617-618, 642-644, 668-669. -/
def diagABC (c : Nat) (indexedCounter : Int) : Bool × Bool × Bool :=
  match c with
  | 0 => (true, false, false)
  | 1 => (indexedCounter == -2, indexedCounter == -1, false)
  | 2 => (indexedCounter == -3, indexedCounter == -2, indexedCounter == -1)
  | _ => (false, indexedCounter == -3, indexedCounter == -2)

/-- One of the four blocks of the AVX2 variant: DomainWarpSimplex.inl:480-491, 498-512, 519-534, 541-553.  The counter is updated after each block. -/
def block256 (c : Nat) (indexPositive indexNegative indexSelectBase : I32) (indexedCounter : Int) : Col × Int :=
  let tableAB := [pFillAB, pIdxNegAB, pFillAB, pIdxPosAB, sFillABC, sIdxABC, eFillABC, eIdxABC]
  let tableC := [pFillC, pIdxNegC, pFillC, pIdxPosC, sFillABC, sIdxABC, eFillABC, eIdxABC]
  let tableD := [pFillD, pIdxNegD, pFillD, pIdxPosD, sFillD, sIdxD, eFillD, eIdxD]
  let indexedPositive := indexPositive == BitVec.ofNat 32 c <<< 27
  let indexed := indexedPositive || indexNegative == BitVec.ofNat 32 c <<< 27
  let indexSelect := indexSelectBase ||| (if indexedPositive then 2 else 0)
  let indexSelect := if indexed then indexSelect + 1 else indexSelect
  let maskedIndexedCounter := if indexed then 0 else indexedCounter
  let d := diagABC c maskedIndexedCounter
  ((if c = 0 then perm8 indexSelect [pDiagAB, pIdxNegAB, pDiagAB, pIdxPosAB, sDiagABC, sIdxABC, eDiagABC, eIdxABC] else maskedAdd d.1 (perm8 indexSelect tableAB) dDiag,
    maskedAdd d.2.1 (perm8 indexSelect tableAB) dDiag,
    maskedAdd d.2.2 (perm8 indexSelect tableC) dDiag,
    perm8 indexSelect tableD),
   if indexed then indexedCounter - 1 else indexedCounter)

/-- The AVX2 variant: DomainWarpSimplex.inl:462-559. -/
def cols256 (indexBasis : I32) : Col × Col × Col × Col :=
  let indexPositive := indexBasis &&& (0x03 <<< 27)
  let indexNegative := indexBasis.sshiftRight 2 &&& (0x03 <<< 27)
  let indexNegative := indexNegative ^^^ indexPositive
  let extraCase := BitVec.sle (0x10 <<< 27) indexBasis
  let singleCase := indexPositive == indexNegative
  let indexPositive := indexPositive ||| (if singleCase then -1 else 0)
  let indexSelectBase : I32 := (if singleCase then 4 else 0) ||| (if extraCase then 2 else 0)
  let x := block256 0 indexPositive indexNegative indexSelectBase (-1)
  let y := block256 1 indexPositive indexNegative indexSelectBase x.2
  let z := block256 2 indexPositive indexNegative indexSelectBase y.2
  let w := block256 3 indexPositive indexNegative indexSelectBase z.2
  (x.1, y.1, z.1, w.1)

/-- One of the four blocks of the generic variant: DomainWarpSimplex.inl:584-602, 609-627, 634-652, 659-675. -/
def blockGen (c : Nat) (indexPositive indexNegative : I32) (negAB fillAB negC fillC posD unD : ℝ) (indexedCounter : Int) : Col × Int :=
  let indexedPositive := indexPositive == BitVec.ofNat 32 c <<< 27
  let indexed := indexedPositive || indexNegative == BitVec.ofNat 32 c <<< 27
  let indexedComponentAB := maskedIncrement indexedPositive negAB
  let indexedComponentC := maskedIncrement indexedPositive negC
  let indexedComponentD := maskedDecrement (!indexedPositive) posD
  let d := diagABC c indexedCounter
  ((select indexed indexedComponentAB (maskedAdd d.1 fillAB dDiag),
    select indexed indexedComponentAB (maskedAdd d.2.1 fillAB dDiag),
    select indexed indexedComponentC (maskedAdd d.2.2 fillC dDiag),
    select indexed indexedComponentD unD),
   if indexed then indexedCounter - 1 else indexedCounter)

/-- The generic variant: DomainWarpSimplex.inl:560-681. -/
def colsGen (indexBasis : I32) : Col × Col × Col × Col :=
  let indexPositive := indexBasis &&& (0x03 <<< 27)
  let indexNegative := indexBasis.sshiftRight 2 &&& (0x03 <<< 27)
  let indexNegative := indexNegative ^^^ indexPositive
  let extraCase := BitVec.sle (0x10 <<< 27) indexBasis
  let singleCase := indexPositive == indexNegative
  let singleNonExtraCase := BitVec.slt indexBasis (0x04 <<< 27)
  let indexPositive := indexPositive ||| (if singleNonExtraCase then -1 else 0)
  let singleOffsetAB := maskedAdd extraCase dSingleAB dExtra
  let negAB := maskedAdd singleCase kNegAB singleOffsetAB
  let fillAB := maskedAdd singleCase kFillAB singleOffsetAB
  let negC := invMaskedAdd singleCase negAB dABToC
  let fillC := invMaskedAdd singleCase fillAB dABToC
  let singleOffsetD := maskedAdd extraCase dSingleD dExtra
  let posD := maskedAdd singleCase kPosD singleOffsetD
  let unD := maskedAdd singleCase kUnD singleOffsetD
  let x := blockGen 0 indexPositive indexNegative negAB fillAB negC fillC posD unD (-1)
  let y := blockGen 1 indexPositive indexNegative negAB fillAB negC fillC posD unD x.2
  let z := blockGen 2 indexPositive indexNegative negAB fillAB negC fillC posD unD y.2
  let w := blockGen 3 indexPositive indexNegative negAB fillAB negC fillC posD unD z.2
  (x.1, y.1, z.1, w.1)

/-- The nested `SelectHighBit` of the last lines: DomainWarpSimplex.inl:690-692. -/
def pick (valueIndex : I32) (a b c d : ℝ) : ℝ :=
  selectHighBit (valueIndex <<< 31) (selectHighBit (valueIndex <<< 30) d b) (selectHighBit (valueIndex <<< 30) c a)

/-- `valueIndexX`, `valueIndexY`, `valueIndexZ` from the hash: DomainWarpSimplex.inl:358-361, 683-686. -/
def valueIndices (hash31 : I32) : I32 × I32 × I32 :=
  let hashShifted := hash31 >>> 2
  let indexBasis := hashShifted * 5
  let indexPermutation3 := (hashShifted * 0xD5555556#32).sshiftRight 29
  let indexPermutation8 := indexBasis.sshiftRight 24
  let valueIndexX := indexPermutation8.sshiftRight 1
  let valueIndexY := (valueIndexX + 1) + indexPermutation3
  let valueIndexZ := indexPermutation8 &&& 1
  let valueIndexZ := (valueIndexX + 1) + (if BitVec.sle indexPermutation3 valueIndexZ then valueIndexZ + 1 else valueIndexZ)
  (valueIndexX, valueIndexY, valueIndexZ)

/-- `ApplyOrthogonalGradientMatrixVectorProductSimplex` 4D: DomainWarpSimplex.inl:319-694. -/
def orth4 (ft : Feat) (hash31 : I32) (fX fY fZ fW multiplier : ℝ) (value : ℝ × ℝ × ℝ × ℝ) : ℝ × ℝ × ℝ × ℝ :=
  let indexBasis := (hash31 >>> 2) * 5
  let g := if ft.avx512 then cols512 indexBasis else if ft.avx2 then cols256 indexBasis else colsGen indexBasis
  let valueA := fma g.2.2.2.1 fW (fma g.2.2.1.1 fZ (fma g.2.1.1 fY (g.1.1 * fX)))
  let valueB := fma g.2.2.2.2.1 fW (fma g.2.2.1.2.1 fZ (fma g.2.1.2.1 fY (g.1.2.1 * fX)))
  let valueC := fma g.2.2.2.2.2.1 fW (fma g.2.2.1.2.2.1 fZ (fma g.2.1.2.2.1 fY (g.1.2.2.1 * fX)))
  let valueD := fma g.2.2.2.2.2.2 fW (fma g.2.2.1.2.2.2 fZ (fma g.2.1.2.2.2 fY (g.1.2.2.2 * fX)))
  let i := valueIndices hash31
  let valueIndexSumXYZ := i.1 + i.2.1 + i.2.2
  let multiplier := xorSign multiplier (hash31 <<< 31)
  (fma multiplier (pick i.1 valueA valueB valueC valueD) value.1,
   fma multiplier (pick i.2.1 valueA valueB valueC valueD) value.2.1,
   fma multiplier (pick i.2.2 valueA valueB valueC valueD) value.2.2.1,
   fma multiplier (selectHighBit (valueIndexSumXYZ <<< 31) (selectHighBit (valueIndexSumXYZ <<< 30) valueD valueB)
     (selectHighBit (valueIndexSumXYZ <<< 30) valueA valueC)) value.2.2.2)

/-- `VectorizationScheme`: DomainWarpSimplex.h:7-11. -/
inductive Scheme where
  | orthogonalGradientMatrix
  | gradientOuterProduct
  deriving DecidableEq

/-- `ApplyVectorContributionSimplex` / `ApplyVectorContributionCommon`: DomainWarpSimplex.inl:696-725.  `value` holds the accumulated warp vector. -/
def applyContribution (s : Scheme) (ft : Feat) (hash : I32) (f : List ℝ) (multiplier : ℝ) (value : List ℝ) : List ℝ :=
  match f, value with
  | [fX, fY], [vX, vY] =>
    let v := (match s with | .orthogonalGradientMatrix => orth2 | .gradientOuterProduct => outer2) ft hash fX fY multiplier (vX, vY)
    [v.1, v.2]
  | [fX, fY, fZ], [vX, vY, vZ] =>
    let v := (match s with | .orthogonalGradientMatrix => orth3 | .gradientOuterProduct => outer3) ft hash fX fY fZ multiplier (vX, vY, vZ)
    [v.1, v.2.1, v.2.2]
  | [fX, fY, fZ, fW], [vX, vY, vZ, vW] =>
    let v := (match s with | .orthogonalGradientMatrix => orth4 | .gradientOuterProduct => outer4) ft hash fX fY fZ fW multiplier (vX, vY, vZ, vW)
    [v.1, v.2.1, v.2.2.1, v.2.2.2]
  | _, _ => value -- no other dimension exists

end
end FastNoise.WarpGrad
