/-!
# Hybrid inputs (constant or generator)

Model of the inputs of a node that may be a constant or another generator, of the setters that
write them (C++ setters and the metadata setters behind the C API), and of the read performed
during generation.

Values `V` are opaque (bit patterns of floats: no arithmetic is done here, so the theorems hold for
the real float type).  A generator is represented by what a consumer can observe of it: the SIMD
level it was created for and the function it computes.
-/
namespace FastNoise.Hybrid

/-- What a consumer observes of a generator object: include/FastNoise/Generators/Generator.h:165-180
(`GetActiveFeatureSet`) and Generator.inl:18-22 (`Gen`).  `K` is the type of a query (seed and
position).  Generators are immutable here: changing a source later is the subject of C19. -/
structure Gen (K V : Type) where
  level : Nat
  eval : K → V

/-- `BaseSource` + `HybridSourceT`: Generator.h:113-149. -/
structure Src (K V : Type) where
  base : Option (Gen K V)
  simd : Option (Gen K V)
  constant : V

/-- `HybridSourceT( float f )`: Generator.h:148; both pointers are default initialised to null. -/
def Src.ofConst (v : V) : Src K V := ⟨none, none, v⟩

/-- `SetSourceSIMDPtr`: Generator.inl:35-46.  `lvl` is the SIMD level of the node being written.
The `dynamic_cast` succeeds exactly for a generator of the same level; the assert after it is not
compiled in release builds, so a mismatch stores null. -/
def simdPtr (lvl : Nat) : Option (Gen K V) → Option (Gen K V)
  | none => none
  | some g => if g.level = lvl then some g else none

/-- `SetSourceMemberVariable`: Generator.h:432-441.  The constant is kept. -/
def Src.setSource (lvl : Nat) (s : Src K V) (g : Option (Gen K V)) : Src K V :=
  { s with simd := simdPtr lvl g, base := g }

/-- The plain float setters `mX = value`, e.g. Fractal.h:11,13, DomainWarp.h:11, Modifiers.h:178:
the implicit conversion builds a fresh `HybridSourceT` which replaces the whole input. -/
def Src.setConst (_s : Src K V) (v : V) : Src K V := Src.ofConst v

/-- `GetSourceValue` for hybrids: Generator.inl:48-58. -/
def Src.value (s : Src K V) (k : K) : V :=
  match s.simd with
  | some g => g.eval k
  | none => s.constant

/-- An assignment to one hybrid input of a node. -/
inductive Op (K V : Type) where
  /-- C++ `node->SetX( 1.5f )` -/
  | const (v : V)
  /-- C++ `node->SetX( source )`, `none` for a null `SmartNode` -/
  | source (g : Option (Gen K V))
  /-- `fnSetHybridFloat`: FastNoise_C.cpp:333-341, Generator.h:708-716 / 750-758 -/
  | apiFloat (v : V)
  /-- `fnSetHybridNodeLookup`: FastNoise_C.cpp:322-331, Generator.h:694-706 / 736-748 -/
  | apiNode (g : Option (Gen K V))

/-- Effect of one assignment; the Boolean is what the API call returns (`true` for the `void` C++
setters).  The metadata setters do nothing for a null source, because
`dynamic_cast<const T*>( nullptr )` is null (Generator.h:696, 738). -/
def Src.apply (lvl : Nat) (s : Src K V) : Op K V → Src K V × Bool
  | .const v => (s.setConst v, true)
  | .source g => (s.setSource lvl g, true)
  | .apiFloat v => (s.setConst v, true)
  | .apiNode none => (s, false)
  | .apiNode (some g) => (s.setSource lvl (some g), true)

/-- The hybrid inputs of one node (plain inputs and the four elements of every
`PerDimensionVariable<HybridSource>`, Generator.h:463-491), numbered like
`metadata.memberHybrids`. -/
abbrev Inputs (K V : Type) := Nat → Src K V

/-- A freshly constructed node: every input holds its default constant (e.g. Fractal.h:20-21). -/
def Inputs.fresh (dflt : Nat → V) : Inputs K V := fun i => Src.ofConst (dflt i)

/-- Assign one input. -/
def Inputs.apply (lvl : Nat) (s : Inputs K V) (e : Nat × Op K V) : Inputs K V :=
  fun j => if j = e.1 then ((s j).apply lvl e.2).1 else s j

/-- A whole history of assignments, oldest first. -/
def Inputs.run (lvl : Nat) (s : Inputs K V) (h : List (Nat × Op K V)) : Inputs K V :=
  h.foldl (Inputs.apply lvl) s

/-! ## Terrace smoothness

`Terrace::SetSmoothness( float )` (Modifiers.h:291-292) maintains a reciprocal beside the hybrid. -/

/-- `mSmoothness` and `mSmoothnessRecip`: Modifiers.h:295-296. -/
structure Terrace (K V : Type) where
  smooth : Src K V
  recip : V

/-- Defaults, Modifiers.h:295-296. -/
def Terrace.fresh (zero : V) : Terrace K V := ⟨Src.ofConst zero, zero⟩

/-- Modifiers.h:291-292 through the C++ or metadata setters.  `rc s` is `1 + 1 / s`. -/
def Terrace.apply [DecidableEq V] (zero : V) (rc : V → V) (lvl : Nat) (t : Terrace K V) (o : Op K V) : Terrace K V :=
  let t' := { t with smooth := (t.smooth.apply lvl o).1 }
  match o with
  | .const v | .apiFloat v => if v ≠ zero then { t' with recip := rc v } else t'
  | _ => t'

/-- The factor that `Terrace::GenT` applies (Modifiers.inl:142-178): `none` when no smoothing is
performed, otherwise the reciprocal it multiplies with. -/
def Terrace.factor [DecidableEq V] (zero : V) (rc : V → V) (t : Terrace K V) (k : K) : Option V :=
  match t.smooth.simd with
  | some g => if g.eval k ≠ zero then some (rc (g.eval k)) else none
  | none => if t.smooth.constant ≠ zero then some t.recip else none

end FastNoise.Hybrid
