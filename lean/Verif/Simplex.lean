import Verif.Lattice
/-!
# Simplex and SuperSimplex noise

Model of `Simplex::Gen` (include/FastNoise/Generators/Simplex.inl:4-288) and `SuperSimplex::Gen` (Simplex.inl:290-937) in 2, 3 and 4 dimensions.
Idealisation: see `Verif.Num`; the irrational constants `kRoot3`, `kRoot5` are the real numbers they approximate.

Simplification: the blocks of SuperSimplex that differ only in which axes move are one function with a mask of axes (`vertex3`, `vertex4`).
-/
namespace FastNoise.Simplex
open FastNoise.Hash FastNoise.Num FastNoise.Basic FastNoise.Gradient FastNoise.Lattice

noncomputable section

/-- What is evaluated at a vertex, from its hash and the offset from it.  `Simplex::Gen` evaluates one ramp, `GetGradientDotPerlin` / `GetGradientDotCommon`;
`DomainWarpSimplex::Warp` (DomainWarpSimplex.inl:769-1836) runs through the same vertices with one ramp per output axis. -/
abbrev Ramp := I32 → List ℝ → ℝ

/-- `kSkew2`, Simplex.inl:13, 299; `kSkew3`, 70, 384; `kSkew4`, 150, 584. -/
def kSkew (n : Nat) : ℝ := if n = 2 then 1 / (√3 + 1) else if n = 3 then 1 / 3 else 1 / (√5 + 1)
/-- `kUnskew2`, Simplex.inl:14, 300; `kReflectUnskew3`, 71, 385; `kUnskew4`, 151, 585. -/
def kUnskew (n : Nat) : ℝ := if n = 2 then -1 / (√3 + 3) else if n = 3 then -1 / 2 else -1 / (√5 + 5)

/-- `FS::MaskedIncrement( m, x )` -/
def maskedInc (m : Bool) (x : ℝ) : ℝ := if m then x + 1 else x
/-- `FS::MaskedDecrement( m, x )` -/
def maskedDec (m : Bool) (x : ℝ) : ℝ := if m then x - 1 else x
/-- `FS::MaskedSub( m, a, b )` -/
def maskedSub (m : Bool) (a b : ℝ) : ℝ := if m then a - b else a
/-- `FS::InvMaskedSub( m, a, b )` -/
def invMaskedSub (m : Bool) (a b : ℝ) : ℝ := if m then a else a - b
/-- `FS::MaskedAdd( m, a, b )` on integers -/
def maskedAddI (m : Bool) (a b : I32) : I32 := if m then a + b else a
/-- `FS::InvMaskedAdd( m, a, b )` on integers -/
def invMaskedAddI (m : Bool) (a b : I32) : I32 := if m then a else a + b
/-- `FS::InvMaskedSub( m, a, b )` on integers -/
def invMaskedSubI (m : Bool) (a b : I32) : I32 := if m then a else a - b

/-- `falloff *= falloff; falloff *= falloff;`, Simplex.inl:50-52. -/
def pow4 (f : ℝ) : ℝ := (f * f) * (f * f)

/-! ## Simplex -/

/-- `Simplex::Gen` 2D after `ScalePositions` and before `ScaleOutput`: Simplex.inl:17-58. -/
def simplex2 (ramp : Ramp) (seed : I32) (x y : ℝ) : ℝ :=
  let kUnskew2 := kUnskew 2
  let skewDelta := kSkew 2 * (x + y)
  let xSkewed := x + skewDelta
  let ySkewed := y + skewDelta
  let xSkewedBase : ℝ := (⌊xSkewed⌋ : ℤ)
  let ySkewedBase : ℝ := (⌊ySkewed⌋ : ℤ)
  let dxSkewed := xSkewed - xSkewedBase
  let dySkewed := ySkewed - ySkewedBase
  let xPrimedBase := convertI32 xSkewedBase * primeX
  let yPrimedBase := convertI32 ySkewedBase * primeY
  let xGreaterEqualY := decide (dxSkewed ≥ dySkewed)
  let unskewDelta := kUnskew2 * (dxSkewed + dySkewed)
  let dx0 := dxSkewed + unskewDelta
  let dy0 := dySkewed + unskewDelta
  let dx1 := maskedInc (!xGreaterEqualY) dx0 - (kUnskew2 + 1)
  let dy1 := maskedInc xGreaterEqualY dy0 - (kUnskew2 + 1)
  let dx2 := dx0 - (kUnskew2 * 2 + 1)
  let dy2 := dy0 - (kUnskew2 * 2 + 1)
  let falloff0 := fnma dx0 dx0 (fnma dy0 dy0 0.5)
  let falloff1 := fnma dx1 dx1 (fnma dy1 dy1 0.5)
  let falloff2 := falloff0 + Num.fma unskewDelta (-4 * (√3 + 2) / (√3 + 3)) (-2 / 3)
  let falloff0 := pow4 (max falloff0 0)
  let falloff1 := pow4 (max falloff1 0)
  let falloff2 := pow4 (max falloff2 0)
  let g0 := ramp (hashPrimes seed [xPrimedBase, yPrimedBase]) [dx0, dy0]
  let g1 := ramp (hashPrimes seed [maskedAddI xGreaterEqualY xPrimedBase primeX, invMaskedAddI xGreaterEqualY yPrimedBase primeY]) [dx1, dy1]
  let g2 := ramp (hashPrimes seed [xPrimedBase + primeX, yPrimedBase + primeY]) [dx2, dy2]
  Num.fma g0 falloff0 (Num.fma g1 falloff1 (g2 * falloff2))

/-- `Simplex::Gen` 3D after `ScalePositions` and before `ScaleOutput`: Simplex.inl:74-137. -/
def simplex3 (ramp : Ramp) (seed : I32) (x y z : ℝ) : ℝ :=
  let kReflectUnskew3 := kUnskew 3
  let skewDelta := kSkew 3 * (x + y + z)
  let xSkewed := x + skewDelta
  let ySkewed := y + skewDelta
  let zSkewed := z + skewDelta
  let xSkewedBase : ℝ := (⌊xSkewed⌋ : ℤ)
  let ySkewedBase : ℝ := (⌊ySkewed⌋ : ℤ)
  let zSkewedBase : ℝ := (⌊zSkewed⌋ : ℤ)
  let dxSkewed := xSkewed - xSkewedBase
  let dySkewed := ySkewed - ySkewedBase
  let dzSkewed := zSkewed - zSkewedBase
  let xPrimedBase := convertI32 xSkewedBase * primeX
  let yPrimedBase := convertI32 ySkewedBase * primeY
  let zPrimedBase := convertI32 zSkewedBase * primeZ
  let xGreaterEqualY := decide (dxSkewed ≥ dySkewed)
  let yGreaterEqualZ := decide (dySkewed ≥ dzSkewed)
  let xGreaterEqualZ := decide (dxSkewed ≥ dzSkewed)
  let unskewDelta := kReflectUnskew3 * (dxSkewed + dySkewed + dzSkewed)
  let dx0 := dxSkewed + unskewDelta
  let dy0 := dySkewed + unskewDelta
  let dz0 := dzSkewed + unskewDelta
  let maskX1 := xGreaterEqualY && xGreaterEqualZ
  let maskY1 := yGreaterEqualZ && !xGreaterEqualY
  let maskZ1 := xGreaterEqualZ || yGreaterEqualZ
  let nMaskX2 := xGreaterEqualY || xGreaterEqualZ
  let nMaskY2 := xGreaterEqualY && !yGreaterEqualZ
  let nMaskZ2 := xGreaterEqualZ && yGreaterEqualZ
  let dx3 := dx0 - (kReflectUnskew3 * 3 + 1)
  let dy3 := dy0 - (kReflectUnskew3 * 3 + 1)
  let dz3 := dz0 - (kReflectUnskew3 * 3 + 1)
  let dx1 := maskedSub maskX1 dx3 1
  let dy1 := maskedSub maskY1 dy3 1
  let dz1 := invMaskedSub maskZ1 dz3 1
  let dx2 := maskedInc (!nMaskX2) dx0
  let dy2 := maskedInc nMaskY2 dy0
  let dz2 := maskedInc nMaskZ2 dz0
  let falloff0 := fnma dz0 dz0 (fnma dy0 dy0 (fnma dx0 dx0 0.6))
  let falloff1 := fnma dz1 dz1 (fnma dy1 dy1 (fnma dx1 dx1 0.6))
  let falloff2 := fnma dz2 dz2 (fnma dy2 dy2 (fnma dx2 dx2 0.6))
  let falloff3 := falloff0 - (unskewDelta + 3 / 4)
  let falloff0 := pow4 (max falloff0 0)
  let falloff1 := pow4 (max falloff1 0)
  let falloff2 := pow4 (max falloff2 0)
  let falloff3 := pow4 (max falloff3 0)
  let g0 := ramp (hashPrimes seed [xPrimedBase, yPrimedBase, zPrimedBase]) [dx0, dy0, dz0]
  let g1 := ramp (hashPrimes seed [maskedAddI maskX1 xPrimedBase primeX, maskedAddI maskY1 yPrimedBase primeY,
    invMaskedAddI maskZ1 zPrimedBase primeZ]) [dx1, dy1, dz1]
  let g2 := ramp (hashPrimes seed [maskedAddI nMaskX2 xPrimedBase primeX, invMaskedAddI nMaskY2 yPrimedBase primeY,
    invMaskedAddI nMaskZ2 zPrimedBase primeZ]) [dx2, dy2, dz2]
  let g3 := ramp (hashPrimes seed [xPrimedBase + primeX, yPrimedBase + primeY, zPrimedBase + primeZ]) [dx3, dy3, dz3]
  Num.fma g3 falloff3 (Num.fma g2 falloff2 (Num.fma g1 falloff1 (g0 * falloff0)))

/-- `FS::MaskedIncrement( m, rank )` on integers (small, so a natural number). -/
def incRank (m : Bool) (r : Nat) : Nat := if m then r + 1 else r

/-- `rankX` .. `rankW`: Simplex.inl:179-207. -/
def ranks4 (dx0 dy0 dz0 dw0 : ℝ) : Nat × Nat × Nat × Nat :=
  let xGreaterEqualY := decide (dx0 ≥ dy0)
  let rankX := incRank xGreaterEqualY 0
  let rankY := incRank (!xGreaterEqualY) 0
  let xGreaterEqualZ := decide (dx0 ≥ dz0)
  let rankX := incRank xGreaterEqualZ rankX
  let rankZ := incRank (!xGreaterEqualZ) 0
  let xGreaterEqualW := decide (dx0 ≥ dw0)
  let rankX := incRank xGreaterEqualW rankX
  let rankW := incRank (!xGreaterEqualW) 0
  let yGreaterEqualZ := decide (dy0 ≥ dz0)
  let rankY := incRank yGreaterEqualZ rankY
  let rankZ := incRank (!yGreaterEqualZ) rankZ
  let yGreaterEqualW := decide (dy0 ≥ dw0)
  let rankY := incRank yGreaterEqualW rankY
  let rankW := incRank (!yGreaterEqualW) rankW
  let zGreaterEqualW := decide (dz0 ≥ dw0)
  let rankZ := incRank zGreaterEqualW rankZ
  let rankW := incRank (!zGreaterEqualW) rankW
  (rankX, rankY, rankZ, rankW)

/-- `Simplex::Gen` 4D after `ScalePositions` and before `ScaleOutput`: Simplex.inl:154-281. -/
def simplex4 (ramp : Ramp) (seed : I32) (x y z w : ℝ) : ℝ :=
  let kUnskew4 := kUnskew 4
  let skewDelta := kSkew 4 * (x + y + z + w)
  let xSkewed := x + skewDelta
  let ySkewed := y + skewDelta
  let zSkewed := z + skewDelta
  let wSkewed := w + skewDelta
  let xSkewedBase : ℝ := (⌊xSkewed⌋ : ℤ)
  let ySkewedBase : ℝ := (⌊ySkewed⌋ : ℤ)
  let zSkewedBase : ℝ := (⌊zSkewed⌋ : ℤ)
  let wSkewedBase : ℝ := (⌊wSkewed⌋ : ℤ)
  let dxSkewed := xSkewed - xSkewedBase
  let dySkewed := ySkewed - ySkewedBase
  let dzSkewed := zSkewed - zSkewedBase
  let dwSkewed := wSkewed - wSkewedBase
  let xPrimedBase := convertI32 xSkewedBase * primeX
  let yPrimedBase := convertI32 ySkewedBase * primeY
  let zPrimedBase := convertI32 zSkewedBase * primeZ
  let wPrimedBase := convertI32 wSkewedBase * primeW
  let unskewDelta := kUnskew4 * (dxSkewed + dySkewed + dzSkewed + dwSkewed)
  let dx0 := dxSkewed + unskewDelta
  let dy0 := dySkewed + unskewDelta
  let dz0 := dzSkewed + unskewDelta
  let dw0 := dwSkewed + unskewDelta
  let rank := ranks4 dx0 dy0 dz0 dw0
  let rankX := rank.1
  let rankY := rank.2.1
  let rankZ := rank.2.2.1
  let rankW := rank.2.2.2
  let maskX1 := decide (rankX > 2)
  let maskY1 := decide (rankY > 2)
  let maskZ1 := decide (rankZ > 2)
  let maskW1 := decide (rankW > 2)
  let maskX2 := decide (rankX > 1)
  let maskY2 := decide (rankY > 1)
  let maskZ2 := decide (rankZ > 1)
  let maskW2 := decide (rankW > 1)
  let maskX3 := decide (rankX > 0)
  let maskY3 := decide (rankY > 0)
  let maskZ3 := decide (rankZ > 0)
  let maskW3 := decide (rankW > 0)
  let dx1 := maskedSub maskX1 dx0 1 - kUnskew4
  let dy1 := maskedSub maskY1 dy0 1 - kUnskew4
  let dz1 := maskedSub maskZ1 dz0 1 - kUnskew4
  let dw1 := maskedSub maskW1 dw0 1 - kUnskew4
  let dx2 := maskedSub maskX2 dx0 1 - kUnskew4 * 2
  let dy2 := maskedSub maskY2 dy0 1 - kUnskew4 * 2
  let dz2 := maskedSub maskZ2 dz0 1 - kUnskew4 * 2
  let dw2 := maskedSub maskW2 dw0 1 - kUnskew4 * 2
  let dx3 := maskedSub maskX3 dx0 1 - kUnskew4 * 3
  let dy3 := maskedSub maskY3 dy0 1 - kUnskew4 * 3
  let dz3 := maskedSub maskZ3 dz0 1 - kUnskew4 * 3
  let dw3 := maskedSub maskW3 dw0 1 - kUnskew4 * 3
  let dx4 := dx0 - (kUnskew4 * 4 + 1)
  let dy4 := dy0 - (kUnskew4 * 4 + 1)
  let dz4 := dz0 - (kUnskew4 * 4 + 1)
  let dw4 := dw0 - (kUnskew4 * 4 + 1)
  let falloff0 := fnma dw0 dw0 (fnma dz0 dz0 (fnma dy0 dy0 (fnma dx0 dx0 0.6)))
  let falloff1 := fnma dw1 dw1 (fnma dz1 dz1 (fnma dy1 dy1 (fnma dx1 dx1 0.6)))
  let falloff2 := fnma dw2 dw2 (fnma dz2 dz2 (fnma dy2 dy2 (fnma dx2 dx2 0.6)))
  let falloff3 := fnma dw3 dw3 (fnma dz3 dz3 (fnma dy3 dy3 (fnma dx3 dx3 0.6)))
  let falloff4 := falloff0 + Num.fma unskewDelta (-4 * (√5 + 3) / (√5 + 5)) (-4 / 5)
  let falloff0 := pow4 (max falloff0 0)
  let falloff1 := pow4 (max falloff1 0)
  let falloff2 := pow4 (max falloff2 0)
  let falloff3 := pow4 (max falloff3 0)
  let falloff4 := pow4 (max falloff4 0)
  let g0 := ramp (hashPrimes seed [xPrimedBase, yPrimedBase, zPrimedBase, wPrimedBase]) [dx0, dy0, dz0, dw0]
  let g1 := ramp (hashPrimes seed [maskedAddI maskX1 xPrimedBase primeX, maskedAddI maskY1 yPrimedBase primeY,
    maskedAddI maskZ1 zPrimedBase primeZ, maskedAddI maskW1 wPrimedBase primeW]) [dx1, dy1, dz1, dw1]
  let g2 := ramp (hashPrimes seed [maskedAddI maskX2 xPrimedBase primeX, maskedAddI maskY2 yPrimedBase primeY,
    maskedAddI maskZ2 zPrimedBase primeZ, maskedAddI maskW2 wPrimedBase primeW]) [dx2, dy2, dz2, dw2]
  let g3 := ramp (hashPrimes seed [maskedAddI maskX3 xPrimedBase primeX, maskedAddI maskY3 yPrimedBase primeY,
    maskedAddI maskZ3 zPrimedBase primeZ, maskedAddI maskW3 wPrimedBase primeW]) [dx3, dy3, dz3, dw3]
  let g4 := ramp (hashPrimes seed [xPrimedBase + primeX, yPrimedBase + primeY, zPrimedBase + primeZ, wPrimedBase + primeW]) [dx4, dy4, dz4, dw4]
  Num.fma g0 falloff0 (Num.fma g1 falloff1 (Num.fma g2 falloff2 (Num.fma g3 falloff3 (g4 * falloff4))))

/-- The three overloads of `Simplex::Gen`. -/
def simplexRaw (ramp : Ramp) (seed : I32) : Pos → ℝ
  | [x, y] => simplex2 ramp seed x y
  | [x, y, z] => simplex3 ramp seed x y z
  | [x, y, z, w] => simplex4 ramp seed x y z w
  | _ => 0 -- no other dimension exists

/-- `kBounding`: Simplex.inl:60, 139, 283. -/
def simplexBound (n : Nat) : ℝ :=
  if n ≤ 2 then 0.0261208079755306243896484375 else if n = 3 then 0.030586399137973785400390625 else 0.036730043590068817138671875

/-- `Simplex::Gen`: Simplex.inl:7-63, 65-142, 144-286. -/
def simplex (ft : Feat) (r : Range ℝ) (scale : ℝ) (seedOffset : I32) : Src := fun seed pos =>
  r.scaleOutput (simplexRaw (gradDot ft) (seed + seedOffset) (scalePositions (frequency scale) pos)) (-simplexBound pos.length) (simplexBound pos.length)

/-! ## SuperSimplex -/

/-- `SuperSimplex::Gen` 2D after `ScalePositions` and before `ScaleOutput`: Simplex.inl:303-372. -/
def super2 (ramp : Ramp) (seed : I32) (x y : ℝ) : ℝ :=
  let kUnskew2 := kUnskew 2
  let r2 : ℝ := 2 / 3
  let skewDelta := kSkew 2 * (x + y)
  let xSkewed := x + skewDelta
  let ySkewed := y + skewDelta
  let xSkewedBase : ℝ := (⌊xSkewed⌋ : ℤ)
  let ySkewedBase : ℝ := (⌊ySkewed⌋ : ℤ)
  let dxSkewed := xSkewed - xSkewedBase
  let dySkewed := ySkewed - ySkewedBase
  let xPrimedBase := convertI32 xSkewedBase * primeX
  let yPrimedBase := convertI32 ySkewedBase * primeY
  let forwardXY := decide (dxSkewed + dySkewed > 1)
  let boundaryXY : ℝ := if forwardXY then -1 else 0
  let forwardX := decide (Num.fma dxSkewed (-2) dySkewed < boundaryXY)
  let forwardY := decide (Num.fma dySkewed (-2) dxSkewed < boundaryXY)
  let unskewDelta := kUnskew2 * (dxSkewed + dySkewed)
  let dxBase := dxSkewed + unskewDelta
  let dyBase := dySkewed + unskewDelta
  -- Vertex <0, 0>
  let g := ramp (hashPrimes seed [xPrimedBase, yPrimedBase]) [dxBase, dyBase]
  let falloffBase0 := fnma dxBase dxBase (fnma dyBase dyBase r2)
  let value := pow4 falloffBase0 * g
  -- Vertex <1, 1>
  let g := ramp (hashPrimes seed [xPrimedBase + primeX, yPrimedBase + primeY]) [dxBase - (2 * kUnskew2 + 1), dyBase - (2 * kUnskew2 + 1)]
  let falloff := Num.fma unskewDelta (-4 * (√3 + 2) / (√3 + 3)) (falloffBase0 - r2)
  let value := Num.fma (pow4 falloff) g value
  let xyDelta := if forwardXY then kUnskew2 + 1 else -kUnskew2
  let dxBase := dxBase - xyDelta
  let dyBase := dyBase - xyDelta
  -- Vertex <1, 0> or <-1, 0> or <1, 2>
  let hash := hashPrimes seed [invMaskedSubI forwardXY (maskedAddI forwardX xPrimedBase (primeX * 2)) primeX, maskedAddI forwardXY yPrimedBase primeY]
  let dx := dxBase - (if forwardX then 1 + 2 * kUnskew2 else -1)
  let dy := maskedSub forwardX dyBase (2 * kUnskew2)
  let falloff := max (fnma dx dx (fnma dy dy r2)) 0
  let value := Num.fma (pow4 falloff) (ramp hash [dx, dy]) value
  -- Vertex <0, 1> or <0, -1> or <2, 1>
  let hash := hashPrimes seed [maskedAddI forwardXY xPrimedBase primeX, invMaskedSubI forwardXY (maskedAddI forwardY yPrimedBase (primeY * 2)) primeY]
  let dx := maskedSub forwardY dxBase (2 * kUnskew2)
  let dy := dyBase - (if forwardY then 1 + 2 * kUnskew2 else -1)
  let falloff := max (fnma dx dx (fnma dy dy r2)) 0
  Num.fma (pow4 falloff) (ramp hash [dx, dy]) value

/-- The lambda `considerVertex`: Simplex.inl:414-418, 618-622.  The state is (maxScore, moveMaskBits). -/
def considerVertex (st : ℝ × I32) (score : ℝ) (bits : I32) : ℝ × I32 :=
  (max st.1 score, if score > st.1 then bits else st.2)

/-- The vertex nearest to the offset within the unit cell, as `moveMaskBits`: Simplex.inl:406-428. -/
def nearest3 (dx dy dz : ℝ) : I32 :=
  let twiceUnskewDelta := (-1 / 4) * (dx + dy + dz)
  let xNormal := dx + twiceUnskewDelta
  let yNormal := dy + twiceUnskewDelta
  let zNormal := dz + twiceUnskewDelta
  let xyzNormal := -twiceUnskewDelta
  let st : ℝ × I32 := (max 0.375 xyzNormal, if xyzNormal > 0.375 then -1 else 0)
  let st := considerVertex st xNormal 0b001
  let st := considerVertex st yNormal 0b010
  let st := considerVertex st zNormal 0b100
  let st := (st.1 + (0.125 - xyzNormal), st.2)
  let st := considerVertex st (-zNormal) 0b011
  let st := considerVertex st (-yNormal) 0b101
  let st := considerVertex st (-xNormal) 0b110
  st.2

/-- `FS::Select( signMask, -prime, prime )` added to the base on the axes that move: Simplex.inl:475-477 and so on. -/
def stepPrime (signMask m : Bool) (base prime : I32) : I32 := if m then base + (if signMask then -prime else prime) else base

/-- `v ^ sign`, where `sign` is the sign bit where `signMask` holds. -/
def flip (signMask : Bool) (v : ℝ) : ℝ := if signMask then -v else v

/-- One of the vertex blocks of the 3D noise: Simplex.inl:471-572.  `m` are the axes that move, `offset1` / `offset0` the offsets subtracted along moving and
other axes, `falloff` the clamped falloff base. -/
def vertex3 (ramp : Ramp) (seed : I32) (b : I32 × I32 × I32) (d : ℝ × ℝ × ℝ) (m : Bool × Bool × Bool) (signMask : Bool) (offset1 offset0 falloff value : ℝ) : ℝ :=
  let g := ramp (hashPrimes seed [stepPrime signMask m.1 b.1 primeX, stepPrime signMask m.2.1 b.2.1 primeY, stepPrime signMask m.2.2 b.2.2 primeZ])
    [d.1 - if m.1 then offset1 else offset0, d.2.1 - if m.2.1 then offset1 else offset0, d.2.2 - if m.2.2 then offset1 else offset0]
  Num.fma (pow4 falloff) g value

/-- `SuperSimplex::Gen` 3D after `ScalePositions` and before `ScaleOutput`: Simplex.inl:392-572. -/
def super3 (ramp : Ramp) (seed : I32) (x y z : ℝ) : ℝ :=
  let kReflectUnskew3 := kUnskew 3
  let skewDelta := kSkew 3 * (x + y + z)
  let xSkewed := x + skewDelta
  let ySkewed := y + skewDelta
  let zSkewed := z + skewDelta
  let xSkewedBase : ℝ := (⌊xSkewed⌋ : ℤ)
  let ySkewedBase : ℝ := (⌊ySkewed⌋ : ℤ)
  let zSkewedBase : ℝ := (⌊zSkewed⌋ : ℤ)
  let dxSkewed := xSkewed - xSkewedBase
  let dySkewed := ySkewed - ySkewedBase
  let dzSkewed := zSkewed - zSkewedBase
  let moveMaskBits := nearest3 dxSkewed dySkewed dzSkewed
  let moveX := moveMaskBits &&& 0b001 != 0
  let moveY := moveMaskBits &&& 0b010 != 0
  let moveZ := moveMaskBits &&& 0b100 != 0
  let xSkewedBase := maskedInc moveX xSkewedBase
  let ySkewedBase := maskedInc moveY ySkewedBase
  let zSkewedBase := maskedInc moveZ zSkewedBase
  let dxSkewed := maskedDec moveX dxSkewed
  let dySkewed := maskedDec moveY dySkewed
  let dzSkewed := maskedDec moveZ dzSkewed
  let b := (convertI32 xSkewedBase * primeX, convertI32 ySkewedBase * primeY, convertI32 zSkewedBase * primeZ)
  let skewedCoordinateSum := dxSkewed + dySkewed + dzSkewed
  let twiceUnskewDelta := (-1 / 4) * skewedCoordinateSum
  let xNormal := dxSkewed + twiceUnskewDelta
  let yNormal := dySkewed + twiceUnskewDelta
  let zNormal := dzSkewed + twiceUnskewDelta
  let xyzNormal := -twiceUnskewDelta
  let unskewDelta := kReflectUnskew3 * skewedCoordinateSum
  let dxBase := dxSkewed + unskewDelta
  let dyBase := dySkewed + unskewDelta
  let dzBase := dzSkewed + unskewDelta
  let d := (dxBase, dyBase, dzBase)
  let coordinateSum := (1 + 3 * kReflectUnskew3) * skewedCoordinateSum
  -- Vertex <0, 0, 0>
  let g := ramp (hashPrimes seed [b.1, b.2.1, b.2.2]) [dxBase, dyBase, dzBase]
  let falloffBase := fnma dzBase dzBase (fnma dyBase dyBase (fnma dxBase dxBase (3 / 4))) * 0.5
  let stemA := falloffBase - 3 / 4 * 0.5
  let stemB := falloffBase - 1 * 0.5
  let value := pow4 falloffBase * g
  -- Vertex <1, 1, 1> or <-1, -1, -1>
  let s := decide (xyzNormal < 0)
  let offset := flip s (3 * kReflectUnskew3 + 1)
  let value := vertex3 ramp seed b d (true, true, true) s offset offset (max (Num.fma offset coordinateSum stemA) 0) value
  -- Vertex <1, 1, 0> or <-1, -1, 0>
  let s := decide (xyzNormal < zNormal)
  let value := vertex3 ramp seed b d (true, true, false) s 0 (flip s (2 * kReflectUnskew3)) (min (flip s dzBase - stemB) 0) value
  -- Vertex <1, 0, 1> or <-1, 0, -1>
  let s := decide (xyzNormal < yNormal)
  let value := vertex3 ramp seed b d (true, false, true) s 0 (flip s (2 * kReflectUnskew3)) (min (flip s dyBase - stemB) 0) value
  -- Vertex <0, 1, 1> or <0, -1, -1>
  let s := decide (xyzNormal < xNormal)
  let value := vertex3 ramp seed b d (false, true, true) s 0 (flip s (2 * kReflectUnskew3)) (min (flip s dxBase - stemB) 0) value
  -- Vertex <1, 0, 0> or <-1, 0, 0>
  let s := decide (xNormal < 0)
  let offset0 := flip s kReflectUnskew3
  let value := vertex3 ramp seed b d (true, false, false) s (-offset0) offset0 (max (Num.fma offset0 coordinateSum stemA + flip s dxBase) 0) value
  -- Vertex <0, 1, 0> or <0, -1, 0>
  let s := decide (yNormal < 0)
  let offset0 := flip s kReflectUnskew3
  let value := vertex3 ramp seed b d (false, true, false) s (-offset0) offset0 (max (Num.fma offset0 coordinateSum stemA + flip s dyBase) 0) value
  -- Vertex <0, 0, 1> or <0, 0, -1>
  let s := decide (zNormal < 0)
  let offset0 := flip s kReflectUnskew3
  vertex3 ramp seed b d (false, false, true) s (-offset0) offset0 (max (Num.fma offset0 coordinateSum stemA + flip s dzBase) 0) value

/-- The vertex nearest to the offset within the unit cell, as `moveMaskBits`: Simplex.inl:608-643. -/
def nearest4 (dx dy dz dw : ℝ) : I32 :=
  let twiceUnskewDelta := (-1 / 5) * (dx + dy + dz + dw)
  let xNormal := dx + twiceUnskewDelta
  let yNormal := dy + twiceUnskewDelta
  let zNormal := dz + twiceUnskewDelta
  let wNormal := dw + twiceUnskewDelta
  let xyzwNormal := -twiceUnskewDelta
  let maxScore := 0.6 - xyzwNormal
  let st : ℝ × I32 := (max maxScore 0.2, if 0.2 > maxScore then -1 else 0)
  let st := considerVertex st (-wNormal) 0b0111
  let st := considerVertex st (-zNormal) 0b1011
  let st := considerVertex st (-yNormal) 0b1101
  let st := considerVertex st (-xNormal) 0b1110
  let st := (st.1 + (xyzwNormal - 0.2), st.2)
  let st := considerVertex st xNormal 0b0001
  let st := considerVertex st yNormal 0b0010
  let st := considerVertex st zNormal 0b0100
  let st := considerVertex st wNormal 0b1000
  let st := (st.1 + (0.2 - xNormal), st.2)
  let st := considerVertex st yNormal 0b0011
  let st := considerVertex st zNormal 0b0101
  let st := considerVertex st wNormal 0b1001
  let st := (st.1 + xNormal, st.2)
  let st := considerVertex st (yNormal + zNormal) 0b0110
  let st := (st.1 - wNormal, st.2)
  let st := considerVertex st yNormal 0b1010
  let st := considerVertex st zNormal 0b1100
  st.2

/-- One of the vertex blocks of the 4D noise: Simplex.inl:692-931; see `vertex3`. -/
def vertex4 (ramp : Ramp) (seed : I32) (b : I32 × I32 × I32 × I32) (d : ℝ × ℝ × ℝ × ℝ) (m : Bool × Bool × Bool × Bool) (signMask : Bool)
    (offset1 offset0 falloff value : ℝ) : ℝ :=
  let g := ramp (hashPrimes seed [stepPrime signMask m.1 b.1 primeX, stepPrime signMask m.2.1 b.2.1 primeY,
      stepPrime signMask m.2.2.1 b.2.2.1 primeZ, stepPrime signMask m.2.2.2 b.2.2.2 primeW])
    [d.1 - if m.1 then offset1 else offset0, d.2.1 - if m.2.1 then offset1 else offset0,
      d.2.2.1 - if m.2.2.1 then offset1 else offset0, d.2.2.2 - if m.2.2.2 then offset1 else offset0]
  Num.fma (pow4 falloff) g value

/-- `SuperSimplex::Gen` 4D after `ScalePositions` and before `ScaleOutput`: Simplex.inl:592-931. -/
def super4 (ramp : Ramp) (seed : I32) (x y z w : ℝ) : ℝ :=
  let kUnskew4 := kUnskew 4
  let skewDelta := kSkew 4 * (x + y + z + w)
  let xSkewed := x + skewDelta
  let ySkewed := y + skewDelta
  let zSkewed := z + skewDelta
  let wSkewed := w + skewDelta
  let xSkewedBase : ℝ := (⌊xSkewed⌋ : ℤ)
  let ySkewedBase : ℝ := (⌊ySkewed⌋ : ℤ)
  let zSkewedBase : ℝ := (⌊zSkewed⌋ : ℤ)
  let wSkewedBase : ℝ := (⌊wSkewed⌋ : ℤ)
  let dxSkewed := xSkewed - xSkewedBase
  let dySkewed := ySkewed - ySkewedBase
  let dzSkewed := zSkewed - zSkewedBase
  let dwSkewed := wSkewed - wSkewedBase
  let moveMaskBits := nearest4 dxSkewed dySkewed dzSkewed dwSkewed
  let moveX := moveMaskBits &&& 0b0001 != 0
  let moveY := moveMaskBits &&& 0b0010 != 0
  let moveZ := moveMaskBits &&& 0b0100 != 0
  let moveW := moveMaskBits &&& 0b1000 != 0
  let xSkewedBase := maskedInc moveX xSkewedBase
  let ySkewedBase := maskedInc moveY ySkewedBase
  let zSkewedBase := maskedInc moveZ zSkewedBase
  let wSkewedBase := maskedInc moveW wSkewedBase
  let dxSkewed := maskedDec moveX dxSkewed
  let dySkewed := maskedDec moveY dySkewed
  let dzSkewed := maskedDec moveZ dzSkewed
  let dwSkewed := maskedDec moveW dwSkewed
  let b := (convertI32 xSkewedBase * primeX, convertI32 ySkewedBase * primeY, convertI32 zSkewedBase * primeZ, convertI32 wSkewedBase * primeW)
  let skewedCoordinateSum := dxSkewed + dySkewed + dzSkewed + dwSkewed
  let twiceUnskewDelta := (-1 / 5) * skewedCoordinateSum
  let xNormal := dxSkewed + twiceUnskewDelta
  let yNormal := dySkewed + twiceUnskewDelta
  let zNormal := dzSkewed + twiceUnskewDelta
  let wNormal := dwSkewed + twiceUnskewDelta
  let xyzwNormal := -twiceUnskewDelta
  let unskewDelta := kUnskew4 * skewedCoordinateSum
  let dxBase := dxSkewed + unskewDelta
  let dyBase := dySkewed + unskewDelta
  let dzBase := dzSkewed + unskewDelta
  let dwBase := dwSkewed + unskewDelta
  let d := (dxBase, dyBase, dzBase, dwBase)
  let coordinateSum := (1 + 4 * kUnskew4) * skewedCoordinateSum
  -- Vertex <0, 0, 0, 0>
  let g := ramp (hashPrimes seed [b.1, b.2.1, b.2.2.1, b.2.2.2]) [dxBase, dyBase, dzBase, dwBase]
  let falloffBase := fnma dwBase dwBase (fnma dzBase dzBase (fnma dyBase dyBase (fnma dxBase dxBase (4 / 5)))) * 0.5
  let stemA := falloffBase - 4 / 5 * 0.5
  let stemB := falloffBase - 6 / 5 * 0.5
  let value := pow4 falloffBase * g
  -- Vertex <1, 1, 1, 1> or <-1, -1, -1, -1>
  let s := decide (xyzwNormal < 0)
  let offset := flip s (4 * kUnskew4 + 1)
  let value := vertex4 ramp seed b d (true, true, true, true) s offset offset (max (Num.fma offset coordinateSum stemA) 0) value
  -- Vertex <1, 1, 1, 0> or <-1, -1, -1, 0>
  let s := decide (xyzwNormal < wNormal)
  let offset1 := flip s (3 * kUnskew4 + 1)
  let offset0 := flip s (3 * kUnskew4)
  let value := vertex4 ramp seed b d (true, true, true, false) s offset1 offset0 (max (Num.fma offset1 coordinateSum stemB - flip s dwBase) 0) value
  -- Vertex <1, 1, 0, 1> or <-1, -1, 0, -1>
  let s := decide (xyzwNormal < zNormal)
  let offset1 := flip s (3 * kUnskew4 + 1)
  let offset0 := flip s (3 * kUnskew4)
  let value := vertex4 ramp seed b d (true, true, false, true) s offset1 offset0 (max (Num.fma offset1 coordinateSum stemB - flip s dzBase) 0) value
  -- Vertex <1, 0, 1, 1> or <-1, 0, -1, -1>
  let s := decide (xyzwNormal < yNormal)
  let offset1 := flip s (3 * kUnskew4 + 1)
  let offset0 := flip s (3 * kUnskew4)
  let value := vertex4 ramp seed b d (true, false, true, true) s offset1 offset0 (max (Num.fma offset1 coordinateSum stemB - flip s dyBase) 0) value
  -- Vertex <0, 1, 1, 1> or <0, -1, -1, -1>
  let s := decide (xyzwNormal < xNormal)
  let offset1 := flip s (3 * kUnskew4 + 1)
  let offset0 := flip s (3 * kUnskew4)
  let value := vertex4 ramp seed b d (false, true, true, true) s offset1 offset0 (max (Num.fma offset1 coordinateSum stemB - flip s dxBase) 0) value
  -- Vertex <1, 0, 0, 0> or <-1, 0, 0, 0>
  let s := decide (xNormal < 0)
  let offset1 := flip s (kUnskew4 + 1)
  let offset0 := flip s kUnskew4
  let value := vertex4 ramp seed b d (true, false, false, false) s offset1 offset0 (max (Num.fma offset0 coordinateSum stemA + flip s dxBase) 0) value
  -- Vertex <1, 1, 0, 0> or <-1, -1, 0, 0>
  let s := decide (xNormal < -yNormal)
  let offset1 := flip s (2 * kUnskew4 + 1)
  let offset0 := flip s (2 * kUnskew4)
  let value := vertex4 ramp seed b d (true, true, false, false) s offset1 offset0 (max (Num.fma offset0 coordinateSum stemB + flip s (dxBase + dyBase)) 0) value
  -- Vertex <1, 0, 1, 0> or <-1, 0, -1, 0>
  let s := decide (xNormal < -zNormal)
  let offset1 := flip s (2 * kUnskew4 + 1)
  let offset0 := flip s (2 * kUnskew4)
  let value := vertex4 ramp seed b d (true, false, true, false) s offset1 offset0 (max (Num.fma offset0 coordinateSum stemB + flip s (dxBase + dzBase)) 0) value
  -- Vertex <1, 0, 0, 1> or <-1, 0, 0, -1>
  let s := decide (xNormal < -wNormal)
  let offset1 := flip s (2 * kUnskew4 + 1)
  let offset0 := flip s (2 * kUnskew4)
  let value := vertex4 ramp seed b d (true, false, false, true) s offset1 offset0 (max (Num.fma offset0 coordinateSum stemB + flip s (dxBase + dwBase)) 0) value
  -- Vertex <0, 1, 0, 0> or <0, -1, 0, 0>
  let s := decide (yNormal < 0)
  let offset1 := flip s (kUnskew4 + 1)
  let offset0 := flip s kUnskew4
  let value := vertex4 ramp seed b d (false, true, false, false) s offset1 offset0 (max (Num.fma offset0 coordinateSum stemA + flip s dyBase) 0) value
  -- Vertex <0, 1, 1, 0> or <0, -1, -1, 0>
  let s := decide (yNormal < -zNormal)
  let offset1 := flip s (2 * kUnskew4 + 1)
  let offset0 := flip s (2 * kUnskew4)
  let value := vertex4 ramp seed b d (false, true, true, false) s offset1 offset0 (max (Num.fma offset0 coordinateSum stemB + flip s (dyBase + dzBase)) 0) value
  -- Vertex <0, 1, 0, 1> or <0, -1, 0, -1>
  let s := decide (yNormal < -wNormal)
  let offset1 := flip s (2 * kUnskew4 + 1)
  let offset0 := flip s (2 * kUnskew4)
  let value := vertex4 ramp seed b d (false, true, false, true) s offset1 offset0 (max (Num.fma offset0 coordinateSum stemB + flip s (dyBase + dwBase)) 0) value
  -- Vertex <0, 0, 1, 0> or <0, 0, -1, 0>
  let s := decide (zNormal < 0)
  let offset1 := flip s (kUnskew4 + 1)
  let offset0 := flip s kUnskew4
  let value := vertex4 ramp seed b d (false, false, true, false) s offset1 offset0 (max (Num.fma offset0 coordinateSum stemA + flip s dzBase) 0) value
  -- Vertex <0, 0, 1, 1> or <0, 0, -1, -1>
  let s := decide (zNormal < -wNormal)
  let offset1 := flip s (2 * kUnskew4 + 1)
  let offset0 := flip s (2 * kUnskew4)
  let value := vertex4 ramp seed b d (false, false, true, true) s offset1 offset0 (max (Num.fma offset0 coordinateSum stemB + flip s (dzBase + dwBase)) 0) value
  -- Vertex <0, 0, 0, 1> or <0, 0, 0, -1>
  let s := decide (wNormal < 0)
  let offset1 := flip s (kUnskew4 + 1)
  let offset0 := flip s kUnskew4
  vertex4 ramp seed b d (false, false, false, true) s offset1 offset0 (max (Num.fma offset0 coordinateSum stemA + flip s dwBase) 0) value

/-- The three overloads of `SuperSimplex::Gen`. -/
def superRaw (ramp : Ramp) (seed : I32) : Pos → ℝ
  | [x, y] => super2 ramp seed x y
  | [x, y, z] => super3 ramp seed x y z
  | [x, y, z, w] => super4 ramp seed x y z w
  | _ => 0 -- no other dimension exists

/-- `kBounding`: Simplex.inl:374, 574, 933. -/
def superBound (n : Nat) : ℝ :=
  if n ≤ 2 then 0.14084912836551666259765625 else if n = 3 then 0.0069091119803488254547119140625 else 0.011310013942420482635498046875

/-- `SuperSimplex::Gen`: Simplex.inl:293-377, 379-576, 578-936. -/
def superSimplex (ft : Feat) (r : Range ℝ) (scale : ℝ) (seedOffset : I32) : Src := fun seed pos =>
  r.scaleOutput (superRaw (gradDot ft) (seed + seedOffset) (scalePositions (frequency scale) pos)) (-superBound pos.length) (superBound pos.length)

end
end FastNoise.Simplex
