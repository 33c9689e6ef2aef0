import Verif.FloatNoise
/-!
# Perlin noise in binary32 arithmetic

`Perlin::Gen` (Perlin.inl:7-125) with its gradient functions, operation by operation, every operation rounded (`F32.lean`).  `Feat` selects the code path (`if constexpr`),
`Level` whether `FMulAdd` rounds once.  Constants are the binary32 values the compiler puts in.  The idealisations of `FloatNoise.lean` apply.
-/
namespace FastNoise.F32
open FastNoise.Hash FastNoise.Num FastNoise.Basic FastNoise.Lattice
open FastNoise.Gradient (Feat xorSign selectHighBit select perm16 perm8 perm32)

noncomputable section

/-- `kRoot2f`: Utils.inl:21, 28.  The binary32 number nearest to 1.4142135623730951 -/
def root2F : ℝ := 11863283 / 2 ^ 23

/-- `1.0f + kRoot2f`: Utils.inl:169, 170, 176, 177, 189 -/
def onePlusRoot2 : ℝ := add 1 root2F

/-- `GetGradientDotCommon`: Utils.inl:121-159 -/
def dotCommon (ft : Feat) (L : Level) (hash : I32) (fX fY fZ : ℝ) : ℝ :=
  if ft.avx512 then
    let gX := perm16 hash [1, -1, 1, -1, 1, -1, 1, -1, 0, 0, 0, 0, 1, 0, -1, 0]
    let gY := perm16 hash [1, 1, -1, -1, 0, 0, 0, 0, 1, -1, 1, -1, 1, -1, 1, -1]
    let gZ := perm16 hash [0, 0, 0, 0, 1, 1, -1, -1, 1, 1, -1, -1, 0, 1, 0, -1]
    fma L gX fX (fma L fY gY (mul fZ gZ))
  else
    let hasha13 := hash &&& 13
    let gt7 := if ft.sse41 then (hash <<< 28).msb else BitVec.slt 7 hasha13
    let u := select gt7 fY fX
    let v := select (hasha13 == 12) fX fZ
    let v := select (BitVec.slt hasha13 2) fY v
    add (xorSign u (hash <<< 31)) (xorSign v (hash.sshiftRight 1 <<< 31))

/-- `GetGradientDotPerlin` 2D: Utils.inl:161-191 -/
def dotPerlin2 (ft : Feat) (L : Level) (hash : I32) (fX fY : ℝ) : ℝ :=
  let c := onePlusRoot2
  if ft.avx512 then
    let gX := perm16 hash [c, -c, c, -c, 1, -1, 1, -1, c, -c, c, -c, 1, -1, 1, -1]
    let gY := perm16 hash [1, 1, -1, -1, c, c, -c, -c, 1, 1, -1, -1, c, c, -c, -c]
    fma L gX fX (mul fY gY)
  else if ft.avx2 then
    let gX := perm8 hash [c, -c, c, -c, 1, -1, 1, -1]
    let gY := perm8 hash [1, 1, -1, -1, c, c, -c, -c]
    fma L gX fX (mul fY gY)
  else
    let fX := xorSign fX (hash <<< 31)
    let fY := xorSign fY (hash.sshiftRight 1 <<< 31)
    let u := selectHighBit (hash <<< 29) fY fX
    let v := selectHighBit (hash <<< 29) fX fY
    fma L c u v

/-- `GetGradientDotPerlin` 4D: Utils.inl:193-219 -/
def dotPerlin4 (ft : Feat) (L : Level) (hash : I32) (fX fY fZ fW : ℝ) : ℝ :=
  if ft.avx512 then
    let gX := perm32 [0, 0, 0, 0, 0, 0, 0, 0, 1, -1, 1, -1, 1, -1, 1, -1] hash [1, -1, 1, -1, 1, -1, 1, -1, 1, -1, 1, -1, 1, -1, 1, -1]
    let gY := perm32 [1, -1, 1, -1, 1, -1, 1, -1, 0, 0, 0, 0, 0, 0, 0, 0] hash [1, 1, -1, -1, 1, 1, -1, -1, 1, 1, -1, -1, 1, 1, -1, -1]
    let gZ := perm32 [1, 1, -1, -1, 1, 1, -1, -1, 1, 1, -1, -1, 1, 1, -1, -1] hash [0, 0, 0, 0, 0, 0, 0, 0, 1, 1, 1, 1, -1, -1, -1, -1]
    let gW := perm32 [1, 1, 1, 1, -1, -1, -1, -1, 1, 1, 1, 1, -1, -1, -1, -1] hash [1, 1, 1, 1, -1, -1, -1, -1, 0, 0, 0, 0, 0, 0, 0, 0]
    fma L gX fX (fma L fY gY (fma L fZ gZ (mul fW gW)))
  else
    let p := hash &&& (3 <<< 3)
    let a := select (BitVec.slt 0 p) fX fY
    let b := selectHighBit (hash <<< 27) fY fZ
    let c := select (BitVec.slt (2 <<< 3) p) fZ fW
    add (add (xorSign a (hash <<< 31)) (xorSign b (hash.sshiftRight 1 <<< 31))) (xorSign c (hash.sshiftRight 2 <<< 31))

/-- `InterpQuintic`: Utils.inl:262-265 -/
def interpQuintic (L : Level) (t : ℝ) : ℝ := mul (mul (mul t t) t) (fma L t (fma L t 6 (-15)) 10)

/-- The gradient function used per dimension: Perlin.inl:29, 66, 111. -/
def gradDot (ft : Feat) (L : Level) (hash : I32) : List ℝ → ℝ
  | [x, y] => dotPerlin2 ft L hash x y
  | [x, y, z] => dotCommon ft L hash x y z
  | [x, y, z, w] => dotPerlin4 ft L hash x y z w
  | _ => 0 -- no other dimension exists

/-- `xf0` / `xf1`: Perlin.inl:20-23. -/
def offset (x : Pos) (bs : List Bool) : List ℝ :=
  List.zipWith (fun (x : ℝ) b => if b then sub (sub x (⌊x⌋ : ℤ)) 1 else sub x (⌊x⌋ : ℤ)) x bs

/-- The part of `Perlin::Gen` before `ScaleOutput`, at a scaled position. -/
def perlinRaw (ft : Feat) (L : Level) (seed : I32) (x : Pos) : ℝ :=
  interp L (fun bs => gradDot ft L (hashPrimes seed (corner x bs)) (offset x bs)) (x.map fun x => interpQuintic L (sub x (⌊x⌋ : ℤ)))

/-- `Perlin::Gen`: Perlin.inl:7-35, 37-74, 76-125. -/
def perlin (ft : Feat) (L : Level) (r : Range ℝ) (scale : ℝ) (seedOffset : I32) : Src := fun seed pos =>
  scaleOutput L r (perlinRaw ft L (seed + seedOffset) (scalePositions (frequency scale) pos)) (-perlinBound pos.length) (perlinBound pos.length)

end
end FastNoise.F32
