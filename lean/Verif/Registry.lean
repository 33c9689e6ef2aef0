import Verif.Deserialise

/-
The node registry: what every node's `MetadataT` constructor registers, in program order, and the C++
member initialisers of every node class.  Sources: include/FastNoise/Generators/*.h and the order in
src/FastNoise/FastSIMD_Build.inl:86-143.  UI-only data (descriptions, drag speeds, min/max hints) is
not modelled.
-/
namespace FastNoise.Registry
open FastNoise.Ser FastNoise.Deser

/-! IEEE-754 binary32 bit patterns of the literals used as defaults. -/
abbrev f0 : UInt32 := 0x00000000
abbrev f01 : UInt32 := 0x3dcccccd
abbrev f05 : UInt32 := 0x3f000000
abbrev f1 : UInt32 := 0x3f800000
abbrev fm1 : UInt32 := 0xbf800000
abbrev f15 : UInt32 := 0x3fc00000
abbrev f2 : UInt32 := 0x40000000
abbrev f50 : UInt32 := 0x42480000
abbrev f100 : UInt32 := 0x42c80000

/-- Metadata.h:93-98 `MemberVariable::eType`. -/
inductive VType where
  | float
  | int
  | enum
deriving Repr, DecidableEq

/-- A registered `MemberVariable` (Metadata.h:91-140); `dim` is `dimensionIdx` (`none` = -1). -/
structure VarDef where
  name : String
  dim : Option Nat := none
  type : VType
  dflt : UInt32
  enums : List String := []
deriving Repr, DecidableEq

/-- A registered `MemberNodeLookup` (Metadata.h:147-153). -/
structure SrcDef where
  name : String
  kind : Kind
deriving Repr, DecidableEq

/-- A registered `MemberHybrid` (Metadata.h:161-175). -/
structure HybDef where
  name : String
  dim : Option Nat := none
  dflt : UInt32
deriving Repr, DecidableEq

/-- One registration statement of a metadata constructor. -/
inductive Ev where
  | group (s : String)
  | var (v : VarDef)
  | src (s : SrcDef)
  | hyb (h : HybDef)
deriving Repr, DecidableEq

/-! Generator.h:498-762: the `Add..` functions. -/

/-- Generator.h:498-546 `AddVariable` with a float default. -/
def fvar (name : String) (d : UInt32) : List Ev := [.var { name := name, type := .float, dflt := d }]
/-- Generator.h:498-546 `AddVariable` with an int default. -/
def ivar (name : String) (d : UInt32) : List Ev := [.var { name := name, type := .int, dflt := d }]
/-- Generator.h:548-597 `AddVariableEnum`. -/
def evar (name : String) (d : UInt32) (enums : List String) : List Ev :=
  [.var { name := name, type := .enum, dflt := d, enums := enums }]
/-- Generator.h:599-627 `AddPerDimensionVariable`: X, Y, Z, W. -/
def fvar4 (name : String) (d : UInt32) : List Ev :=
  [0, 1, 2, 3].map fun i => .var { name := name, dim := some i, type := .float, dflt := d }
/-- Generator.h:629-652 `AddGeneratorSource`. -/
def source (name : String) (k : Kind := .any) : List Ev := [.src { name := name, kind := k }]
/-- Generator.h:685-718 `AddHybridSource`. -/
def hybrid (name : String) (d : UInt32) : List Ev := [.hyb { name := name, dflt := d }]
/-- Generator.h:720-758 `AddPerDimensionHybridSource`. -/
def hybrid4 (name : String) (d : UInt32) : List Ev :=
  [0, 1, 2, 3].map fun i => .hyb { name := name, dim := some i, dflt := d }
/-- `groups.push_back( name )` -/
def group (name : String) : List Ev := [.group name]

/-- Generator.h:50-58 -/
def distanceFunctionStrings : List String :=
  ["Euclidean", "Euclidean Squared", "Manhattan", "Hybrid", "Max Axis", "Minkowski"]

/-! Metadata constructors of the abstract base classes. -/

/-- BasicGenerators.h:33-39 -/
def mScalable : List Ev := fvar "Feature Scale" f100
/-- BasicGenerators.h:69-78 -/
def mSeeded (parent : List Ev) : List Ev := parent ++ ivar "Seed Offset" 0
/-- BasicGenerators.h:117-124 -/
def mVariableRange (parent : List Ev) : List Ev :=
  parent ++ fvar "Output Min" fm1 ++ fvar "Output Max" f1
/-- Blends.h:22-30 -/
def mOperatorSourceLHS (g : String := "Blends") : List Ev := group g ++ source "LHS" ++ hybrid "RHS" f0
/-- Blends.h:48-56 -/
def mOperatorHybridLHS (g : String) : List Ev := group g ++ hybrid "LHS" f0 ++ hybrid "RHS" f0
/-- Cellular.h:31-55 -/
def mCellular (parent : List Ev) : List Ev :=
  parent ++ group "Coherent Noise" ++ evar "Distance Function" 1 distanceFunctionStrings ++
  hybrid "Minkowski P" f15 ++ hybrid "Grid Jitter" f1 ++ hybrid "Size Jitter" f0
/-- Fractal.h:29-61 -/
def mFractal (sourceName : String := "Source") (addGroup : Bool := true) (k : Kind := .any) : List Ev :=
  (if addGroup then group "Fractal" else []) ++ source sourceName k ++ hybrid "Gain" f05 ++
  hybrid "Weighted Strength" f0 ++ ivar "Octaves" 3 ++ fvar "Lacunarity" f2
/-- DomainWarp.h:26-36 -/
def mDomainWarp : List Ev :=
  mSeeded mScalable ++ group "Domain Warp" ++ source "Source" ++ hybrid "Warp Amplitude" f50 ++
  fvar4 "Amplitude Scaling" f1
/-- DomainWarpSimplex.h:32-50 -/
def mDomainWarpSimplex : List Ev :=
  mDomainWarp ++ evar "Vectorization Scheme" 0 ["Orthogonal Gradient Matrix", "Gradient Outer Product"]
/-- DomainWarpFractal.h:15-30; 41-51 inherits it -/
def mDomainWarpFractal : List Ev :=
  mFractal "Domain Warp Source" false .warp ++ group "Domain Warp" ++ group "Fractal"
/-- `MetadataT<VariableRange<Seeded<ScalableGenerator>>>` -/
def mVSS : List Ev := mVariableRange (mSeeded mScalable)

/-- A registered node class: metadata constructor, whether it derives from `DomainWarp`, and the values of
its member variables / hybrids (in registration order) right after construction. -/
structure NodeDef where
  name : String
  evs : List Ev
  isWarp : Bool := false
  classVars : List UInt32
  classHybs : List UInt32
deriving Repr, DecidableEq

/-- Member initialisers of `VariableRange<Seeded<ScalableGenerator>>` seen through its setters: scale 100,
seed offset 0, range min -1 and range scale 2, i.e. max 1 (BasicGenerators.h:27,64,111-112). -/
def cVSS : List UInt32 := [f100, 0, fm1, f1]
/-- Member initialisers of `DomainWarp` (BasicGenerators.h:27,64; DomainWarp.h:19). -/
def cWarp : List UInt32 := [f100, 0, f1, f1, f1, f1]

/-- src/FastNoise/FastSIMD_Build.inl:86-143: every registered node in id order. -/
def nodes : List NodeDef := [
  -- 0: BasicGenerators.h:127-153
  { name := "Constant", evs := group "Basic Generators" ++ fvar "Value" f1, classVars := [f1], classHybs := [] },
  -- 1: BasicGenerators.h:155-175
  { name := "White", evs := mVariableRange (mSeeded []) ++ group "Basic Generators",
    classVars := [0, fm1, f1], classHybs := [] },
  -- 2: BasicGenerators.h:177-197
  { name := "Checkerboard", evs := mVariableRange mScalable ++ group "Basic Generators",
    classVars := [f100, fm1, f1], classHybs := [] },
  -- 3: BasicGenerators.h:199-219
  { name := "SineWave", evs := mVariableRange mScalable ++ group "Basic Generators",
    classVars := [f100, fm1, f1], classHybs := [] },
  -- 4: BasicGenerators.h:221-259
  { name := "Gradient", evs := group "Basic Generators" ++ fvar4 "Multiplier" f0 ++ hybrid4 "Offset" f0,
    classVars := [f0, f0, f0, f0], classHybs := [f0, f0, f0, f0] },
  -- 5: BasicGenerators.h:261-316; the class default (line 289) is EuclideanSquared, the metadata default
  -- (line 305) is Euclidean
  { name := "DistanceToPoint",
    evs := group "Basic Generators" ++ evar "Distance Function" 0 distanceFunctionStrings ++
      hybrid4 "Point" f0 ++ hybrid "Minkowski P" f15,
    classVars := [1], classHybs := [f0, f0, f0, f0, f15] },
  -- 6, 7: Simplex.h:6-49
  { name := "Simplex", evs := mVSS ++ group "Coherent Noise", classVars := cVSS, classHybs := [] },
  { name := "SuperSimplex", evs := mVSS ++ group "Coherent Noise", classVars := cVSS, classHybs := [] },
  -- 8: Perlin.h:6-27
  { name := "Perlin", evs := mVSS ++ group "Coherent Noise", classVars := cVSS, classHybs := [] },
  -- 9: Value.h:6-27
  { name := "Value", evs := mVSS ++ group "Coherent Noise", classVars := cVSS, classHybs := [] },
  -- 10: Cellular.h:58-85
  { name := "CellularValue", evs := mCellular mVSS ++ ivar "Value Index" 0,
    classVars := cVSS ++ [1, 0], classHybs := [f15, f1, f0] },
  -- 11: Cellular.h:88-131
  { name := "CellularDistance",
    evs := mCellular mVSS ++ ivar "Distance Index 0" 0 ++ ivar "Distance Index 1" 1 ++
      evar "Return Type" 0 ["Index0", "Index0Add1", "Index0Sub1", "Index0Mul1", "Index0Div1"],
    classVars := cVSS ++ [1, 0, 1, 0], classHybs := [f15, f1, f0] },
  -- 12: Cellular.h:134-160
  { name := "CellularLookup", evs := mCellular (mSeeded mScalable) ++ source "Lookup",
    classVars := [f100, 0, 1], classHybs := [f15, f1, f0] },
  -- 13: Fractal.h:65-85
  { name := "FractalFBm", evs := mFractal, classVars := [3, f2], classHybs := [f05, f0] },
  -- 14: Modifiers.h:321-357
  { name := "PingPong", evs := group "Modifiers" ++ source "Source" ++ hybrid "Ping Pong Strength" f2,
    classVars := [], classHybs := [f2] },
  -- 15: Fractal.h:88-108
  { name := "FractalRidged", evs := mFractal, classVars := [3, f2], classHybs := [f05, f0] },
  -- 16, 17: DomainWarpSimplex.h:19-75
  { name := "DomainWarpSimplex", evs := mDomainWarpSimplex, isWarp := true,
    classVars := cWarp ++ [0], classHybs := [f50] },
  { name := "DomainWarpSuperSimplex", evs := mDomainWarpSimplex, isWarp := true,
    classVars := cWarp ++ [0], classHybs := [f50] },
  -- 18: DomainWarp.h:39-60
  { name := "DomainWarpGradient", evs := mDomainWarp, isWarp := true, classVars := cWarp, classHybs := [f50] },
  -- 19, 20: DomainWarpFractal.h:7-55
  { name := "DomainWarpFractalProgressive", evs := mDomainWarpFractal, classVars := [3, f2], classHybs := [f05, f0] },
  { name := "DomainWarpFractalIndependent", evs := mDomainWarpFractal, classVars := [3, f2], classHybs := [f05, f0] },
  -- 21..24: Blends.h:59-121
  { name := "Add", evs := mOperatorSourceLHS "Operators", classVars := [], classHybs := [f0] },
  { name := "Subtract", evs := mOperatorHybridLHS "Operators", classVars := [], classHybs := [f0, f0] },
  { name := "Multiply", evs := mOperatorSourceLHS "Operators", classVars := [], classHybs := [f0] },
  { name := "Divide", evs := mOperatorHybridLHS "Operators", classVars := [], classHybs := [f0, f0] },
  -- 25: Modifiers.h:517-543
  { name := "Abs", evs := group "Modifiers" ++ source "Source", classVars := [], classHybs := [] },
  -- 26, 27: Blends.h:139-165
  { name := "Min", evs := mOperatorSourceLHS, classVars := [], classHybs := [f0] },
  { name := "Max", evs := mOperatorSourceLHS, classVars := [], classHybs := [f0] },
  -- 28, 29: Blends.h:229-289
  { name := "MinSmooth", evs := mOperatorSourceLHS ++ hybrid "Smoothness" f01, classVars := [], classHybs := [f0, f01] },
  { name := "MaxSmooth", evs := mOperatorSourceLHS ++ hybrid "Smoothness" f01, classVars := [], classHybs := [f0, f01] },
  -- 30: Modifiers.h:488-515
  { name := "SignedSquareRoot", evs := group "Modifiers" ++ source "Source", classVars := [], classHybs := [] },
  -- 31, 32: Blends.h:167-227
  { name := "PowFloat", evs := group "Blends" ++ hybrid "Value" f2 ++ hybrid "Pow" f2,
    classVars := [], classHybs := [f2, f2] },
  { name := "PowInt", evs := group "Blends" ++ source "Value" ++ ivar "Pow" 2, classVars := [2], classHybs := [] },
  -- 33: Modifiers.h:6-35
  { name := "DomainScale", evs := group "Domain Modifiers" ++ source "Source" ++ fvar "Scaling" f1,
    classVars := [f1], classHybs := [] },
  -- 34: Modifiers.h:37-75
  { name := "DomainOffset", evs := group "Domain Modifiers" ++ source "Source" ++ hybrid4 "Offset" f0,
    classVars := [], classHybs := [f0, f0, f0, f0] },
  -- 35: Modifiers.h:77-144 (angle 0: cos 1, sin 0)
  { name := "DomainRotate",
    evs := group "Domain Modifiers" ++ source "Source" ++ fvar "Yaw" f0 ++ fvar "Pitch" f0 ++ fvar "Roll" f0,
    classVars := [f0, f0, f0], classHybs := [] },
  -- 36: Modifiers.h:360-393
  { name := "DomainAxisScale", evs := group "Domain Modifiers" ++ source "Source" ++ fvar4 "Scaling" f1,
    classVars := [f1, f1, f1, f1], classHybs := [] },
  -- 37: Modifiers.h:146-175
  { name := "SeedOffset", evs := group "Modifiers" ++ source "Source" ++ ivar "Seed Offset" 1,
    classVars := [1], classHybs := [] },
  -- 38: Modifiers.h:235-281
  { name := "ConvertRGBA8", evs := group "Modifiers" ++ source "Source" ++ fvar "Min" fm1 ++ fvar "Max" f1,
    classVars := [fm1, f1], classHybs := [] },
  -- 39: Modifiers.h:459-486
  { name := "GeneratorCache", evs := group "Modifiers" ++ source "Source", classVars := [], classHybs := [] },
  -- 40: Blends.h:291-347
  { name := "Fade",
    evs := group "Blends" ++ source "A" ++ source "B" ++ hybrid "Fade" f0 ++ hybrid "Fade Min" fm1 ++
      hybrid "Fade Max" f1 ++ evar "Interpolation" 0 ["Linear", "Hermite", "Quintic"],
    classVars := [0], classHybs := [f0, fm1, f1] },
  -- 41: Modifiers.h:177-233
  { name := "Remap",
    evs := group "Modifiers" ++ source "Source" ++ hybrid "From Min" fm1 ++ hybrid "From Max" f1 ++
      hybrid "To Min" f0 ++ hybrid "To Max" f1 ++ evar "Clamp Output" 0 ["False", "True"],
    classVars := [0], classHybs := [fm1, f1, f0, f1] },
  -- 42: Modifiers.h:283-319
  { name := "Terrace",
    evs := group "Modifiers" ++ source "Source" ++ fvar "Step Count" f1 ++ hybrid "Smoothness" f0,
    classVars := [f1], classHybs := [f0] },
  -- 43: Modifiers.h:395-426
  { name := "AddDimension",
    evs := group "Domain Modifiers" ++ source "Source" ++ hybrid "New Dimension Position" f0,
    classVars := [], classHybs := [f0] },
  -- 44: Modifiers.h:428-457
  { name := "RemoveDimension",
    evs := group "Domain Modifiers" ++ source "Source" ++ evar "Remove Dimension" 1 ["X", "Y", "Z", "W"],
    classVars := [1], classHybs := [] },
  -- 45: Blends.h:123-137
  { name := "Modulus", evs := mOperatorHybridLHS "Operators", classVars := [], classHybs := [f0, f0] },
  -- 46: Modifiers.h:545-582
  { name := "DomainRotatePlane",
    evs := group "Domain Modifiers" ++ source "Source" ++
      evar "Rotation Type" 0 ["Improve XY Planes", "Improve XZ Planes"],
    classVars := [0], classHybs := [] } ]

/-! What a node registered (the specification of its member lists). -/

def groupsOf (evs : List Ev) : List String := evs.filterMap fun e => match e with | .group s => some s | _ => none
def varsOf (evs : List Ev) : List VarDef := evs.filterMap fun e => match e with | .var v => some v | _ => none
def srcsOf (evs : List Ev) : List SrcDef := evs.filterMap fun e => match e with | .src s => some s | _ => none
def hybsOf (evs : List Ev) : List HybDef := evs.filterMap fun e => match e with | .hyb h => some h | _ => none

/-- The (de)serialiser's view of a node. -/
def NodeDef.toMeta (n : NodeDef) : Meta :=
  { vars := (varsOf n.evs).map (·.dflt), lookups := (srcsOf n.evs).map (·.kind),
    hybrids := (hybsOf n.evs).map (·.dflt), isWarp := n.isWarp }

/-- `Metadata::GetAll()` as the (de)serialiser sees it. -/
def reg : Reg := nodes.map NodeDef.toMeta

/-- Class member initialisers of every node. -/
def classDefaults : List ClassDefaults := nodes.map fun n => { vars := n.classVars, hybrids := n.classHybs }

/-- Facts about a registry that the (de)serialiser relies on: 5 bit member indices, 8 bit ids with 255
reserved. -/
structure RegOK (r : Reg) : Prop where
  vars : ∀ m ∈ r, m.vars.length ≤ 32
  lookups : ∀ m ∈ r, m.lookups.length ≤ 31
  hybrids : ∀ m ∈ r, m.hybrids.length ≤ 32
  ids : r.length ≤ 255

theorem reg_ok : RegOK reg where
  vars := by decide +kernel
  lookups := by decide +kernel
  hybrids := by decide +kernel
  ids := by decide +kernel

/-- Class defaults have one value per registered variable / hybrid. -/
def CdOK (r : Reg) (cd : List ClassDefaults) : Prop :=
  cd.length = r.length ∧ ∀ (i : Nat) (m : Meta) (c : ClassDefaults), r[i]? = some m → cd[i]? = some c →
    c.vars.length = m.vars.length ∧ c.hybrids.length = m.hybrids.length

theorem shipped_cd_ok : CdOK reg classDefaults := by
  refine ⟨by simp [reg, classDefaults], ?_⟩
  have h : ∀ n ∈ nodes, n.classVars.length = n.toMeta.vars.length ∧
      n.classHybs.length = n.toMeta.hybrids.length := by decide +kernel
  intro i m c hm hc
  simp only [reg, classDefaults, List.getElem?_map, Option.map_eq_some_iff] at hm hc
  obtain ⟨n, hn, rfl⟩ := hm
  obtain ⟨n', hn', rfl⟩ := hc
  rw [hn] at hn'
  cases hn'
  exact h n (List.mem_of_getElem? hn)

end FastNoise.Registry
