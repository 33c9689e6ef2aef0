import Verif.Fractal
import Verif.Simplex
import Verif.WarpGrad
/-!
# DomainWarpSimplex and DomainWarpSuperSimplex

Model of `DomainWarpSimplex::Warp` and `DomainWarpSuperSimplex::Warp` (include/FastNoise/Generators/DomainWarpSimplex.inl:727-1836) in 2, 3 and 4 dimensions, for both
vectorization schemes.  Idealisation: see `Verif.Num`.

Simplification: the search for the grid points and their falloffs (DomainWarpSimplex.inl:773-812, 837-900, 934-1053 and 1134-1206, 1223-1423, 1451-1819) is, statement for
statement, that of `Simplex::Gen` and `SuperSimplex::Gen`; only `value = FMulAdd( falloff, ramp, value )` is replaced by a call that updates one accumulator per axis.
The model therefore evaluates `simplexRaw` / `superRaw` once per axis.  That the accumulators of different axes do not influence each other and that the falloff enters as
a factor is not assumed: see `C45_contribution` in `Verif.WarpSimplexProps`.
-/
namespace FastNoise.WarpSimplex
open FastNoise.Hash FastNoise.Num FastNoise.Basic FastNoise.Gradient FastNoise.Simplex FastNoise.WarpGrad FastNoise.Fractal

noncomputable section

/-- The change of the accumulator of axis `k` by `ApplyVectorContributionSimplex` / `ApplyVectorContributionCommon` (DomainWarpSimplex.inl:696-725) with falloff one. -/
def vecRamp (s : Scheme) (ft : Feat) (k : Nat) : Ramp := fun h f => (applyContribution s ft h f 1 (List.replicate f.length 0)).getD k 0

/-- "Match gradient orientation", only in 3D and not for the orthogonal gradient matrix: DomainWarpSimplex.inl:909-917, 1424-1432. -/
def matchOrientation (s : Scheme) (kReflect3D : ℝ) (value : List ℝ) : List ℝ :=
  match s, value with
  | .gradientOuterProduct, [valueX, valueY, valueZ] =>
    let valueTransformDelta := kReflect3D * (valueX + valueY + valueZ)
    [valueX + valueTransformDelta, valueY + valueTransformDelta, valueZ + valueTransformDelta]
  | _, v => v

/-- `FMulAdd( valueW, valueW, FMulAdd( valueZ, valueZ, FMulAdd( valueY, valueY, valueX * valueX ) ) )`: DomainWarpSimplex.inl:832, 930, 1086, 1217, 1445, 1834. -/
def sumSqL (value : List ℝ) : ℝ := value.foldl (fun acc v => Num.fma v v acc) 0

/-- The last lines of all six functions: DomainWarpSimplex.inl:827-832, 923-930, 1077-1086, 1212-1217, 1438-1445, 1825-1834. -/
def finish (kBounding : ℝ) (axisScale : Nat → ℝ) (warpAmp : ℝ) (value out : List ℝ) : List ℝ × ℝ :=
  let value := value.mapIdx fun k v => v * (kBounding * axisScale k)
  (List.zipWith (fun v o => Num.fma v warpAmp o) value out, sumSqL value)

/-- `kBounding` of DomainWarpSimplex: DomainWarpSimplex.inl:823-825, 919-921, 1073-1075. -/
def simplexBounding (s : Scheme) (n : Nat) : ℝ :=
  match s with
  | .gradientOuterProduct => if n ≤ 2 then 49.918426513671875 / 2 else if n = 3 then 32.69428253173828125 / 1.4142135623730951 else 33.653125584827855 / 1.4142135623730951
  | .orthogonalGradientMatrix => if n ≤ 2 then 70.1480577066486 else if n = 3 then 16.281631889139874 else 30.88161777516092

/-- `kBounding` of DomainWarpSuperSimplex: DomainWarpSimplex.inl:1208-1210, 1434-1436, 1821-1823. -/
def superBounding (s : Scheme) (n : Nat) : ℝ :=
  match s with
  | .gradientOuterProduct => if n ≤ 2 then 9.28993664146183 / 2 else if n = 3 then 144.736422163332608 / 1.4142135623730951 else 115.21625311930542 / 1.4142135623730951
  | .orthogonalGradientMatrix => if n ≤ 2 then 12.814453124999995 else if n = 3 then 37.63698669623629 else 48.80058117543753

/-- `DomainWarpSimplex::Warp`: DomainWarpSimplex.inl:731-768 with `Warp_2D`, `Warp_3D`, `Warp_4D`, 771-1087. -/
def simplexWarp (s : Scheme) (ft : Feat) (seedOffset : I32) (axisScale : Nat → ℝ) : WarpFn := fun seed warpAmp x out =>
  let seed := seed + seedOffset
  let value := (List.range x.length).map fun k => simplexRaw (vecRamp s ft k) seed x
  finish (simplexBounding s x.length) axisScale warpAmp (matchOrientation s (-2 / 2) value) out

/-- `DomainWarpSuperSimplex::Warp`: DomainWarpSimplex.inl:1094-1128 with `Warp_2D`, `Warp_3D`, `Warp_4D`, 1131-1835.  The seed offset of the node is not used. -/
def superSimplexWarp (s : Scheme) (ft : Feat) (axisScale : Nat → ℝ) : WarpFn := fun seed warpAmp x out =>
  let value := (List.range x.length).map fun k => superRaw (vecRamp s ft k) seed x
  finish (superBounding s x.length) axisScale warpAmp (matchOrientation s (-2 / 3) value) out

end
end FastNoise.WarpSimplex
