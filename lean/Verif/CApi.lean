import Verif.MetaVec

/-
Model of the metadata functions of the C API (src/FastNoise/FastNoise_C.cpp:117-476), over the physical
metadata arrays of MetaVec.lean.  Every result is an `Option`; `none` is a read outside an array.
Descriptions and UI limits (fnGetMetadata*Description, fnGetMetadataVariableMin/MaxFloat) are not modelled:
the metadata model does not carry those fields; their control flow is that of the other getters.
-/
namespace FastNoise.CApi
open FastNoise.Registry FastNoise.Ser FastNoise.MetaVec

/-- `Metadata::GetFromId( (node_id)id )`: the `int` is cut to 8 bits (Metadata.h:177, 194-204). -/
def metaOf (S : Store) (id : Int) : Option (Option MObj) := getFromId S (id % 256).toNat

/-- `(size_t)index` of an `int`. -/
def toSizeT (i : Int) : Nat := (i % 2 ^ 64).toNat

/-- FastNoise_C.cpp:117-120. -/
def fnGetMetadataCount (S : Store) : Int := S.allV.size

/-- Shape of a function with only an id: FastNoise_C.cpp:122-129, 143-150, 241-248, 287-294, 352-359. -/
def byId {R : Type} (S : Store) (id : Int) (badId : R) (f : MObj → R) : Option R :=
  match metaOf S id with
  | none => none
  | some none => some badId
  | some (some o) => some (f o)

/-- Shape of a function with an id and a member index: bounds check against `size()`, then `operator[]`. -/
def byIndex {T R : Type} (S : Store) (id index : Int) (badId badIndex : R) (v : MObj → Vec) (st : List T)
    (f : T → Option R) : Option R :=
  match metaOf S id with
  | none => none
  | some none => some badId
  | some (some o) =>
    if toSizeT index < (v o).size then
      match (v o).at st (toSizeT index) with
      | none => none
      | some m => f m
    else some badIndex

/-- `dimensionIdx`, -1 if not per dimension (Metadata.h:81). -/
def dimInt : Option Nat → Int
  | none => -1
  | some d => d

/-- Metadata.h:93-98. -/
def typeInt : VType → Int
  | .float => 0
  | .int => 1
  | .enum => 2

/-- FastNoise_C.cpp:122-129. -/
def fnGetMetadataName (S : Store) (id : Int) : Option String := byId S id "INVALID NODE ID" (·.name)
/-- FastNoise_C.cpp:143-150. -/
def fnGetMetadataVariableCount (S : Store) (id : Int) : Option Int := byId S id (-1) fun o => o.vars.size
/-- FastNoise_C.cpp:241-248. -/
def fnGetMetadataNodeLookupCount (S : Store) (id : Int) : Option Int := byId S id (-1) fun o => o.srcs.size
/-- FastNoise_C.cpp:287-294. -/
def fnGetMetadataHybridCount (S : Store) (id : Int) : Option Int := byId S id (-1) fun o => o.hybs.size
/-- FastNoise_C.cpp:352-359. -/
def fnGetMetadataGroupCount (S : Store) (id : Int) : Option Int := byId S id (-1) fun o => o.groups.size
/-- FastNoise_C.cpp:152-163. -/
def fnGetMetadataVariableName (S : Store) (id i : Int) : Option String :=
  byIndex S id i "INVALID NODE ID" "INVALID VARIABLE INDEX" (·.vars) S.vars fun m => some m.name
/-- FastNoise_C.cpp:165-176. -/
def fnGetMetadataVariableType (S : Store) (id i : Int) : Option Int :=
  byIndex S id i (-1) (-1) (·.vars) S.vars fun m => some (typeInt m.type)
/-- FastNoise_C.cpp:178-189. -/
def fnGetMetadataVariableDimensionIdx (S : Store) (id i : Int) : Option Int :=
  byIndex S id i (-1) (-1) (·.vars) S.vars fun m => some (dimInt m.dim)
/-- FastNoise_C.cpp:387-411 (float and int/enum versions read the same 32 bits). -/
def fnGetMetadataVariableDefault (S : Store) (id i : Int) : Option UInt32 :=
  byIndex S id i 0 0 (·.vars) S.vars fun m => some m.dflt
/-- FastNoise_C.cpp:191-202. -/
def fnGetMetadataEnumCount (S : Store) (id i : Int) : Option Int :=
  byIndex S id i (-1) (-1) (·.vars) S.vars fun m => some m.enumNames.size
/-- FastNoise_C.cpp:204-219. -/
def fnGetMetadataEnumName (S : Store) (id i e : Int) : Option String :=
  byIndex S id i "INVALID NODE ID" "INVALID VARIABLE INDEX" (·.vars) S.vars fun m =>
    if toSizeT e < m.enumNames.size then m.enumNames.at S.strs (toSizeT e) else some "INVALID ENUM INDEX"
/-- FastNoise_C.cpp:250-261. -/
def fnGetMetadataNodeLookupName (S : Store) (id i : Int) : Option String :=
  byIndex S id i "INVALID NODE ID" "INVALID NODE LOOKUP INDEX" (·.srcs) S.srcs fun m => some m.name
/-- FastNoise_C.cpp:296-307. -/
def fnGetMetadataHybridName (S : Store) (id i : Int) : Option String :=
  byIndex S id i "INVALID NODE ID" "INVALID HYBRID INDEX" (·.hybs) S.hybs fun m => some m.name
/-- FastNoise_C.cpp:309-320. -/
def fnGetMetadataHybridDimensionIdx (S : Store) (id i : Int) : Option Int :=
  byIndex S id i (-1) (-1) (·.hybs) S.hybs fun m => some (dimInt m.dim)
/-- FastNoise_C.cpp:465-476. -/
def fnGetMetadataHybridDefault (S : Store) (id i : Int) : Option UInt32 :=
  byIndex S id i 0 0 (·.hybs) S.hybs fun m => some m.dflt
/-- FastNoise_C.cpp:361-372. -/
def fnGetMetadataGroupName (S : Store) (id i : Int) : Option String :=
  byIndex S id i "INVALID NODE ID" "INVALID GROUP INDEX" (·.groups) S.strs some

/-! ## Setters -/

/-- A live node: which metadata object it has, and per member (in registration order) the last value given
to the member's setter.  Setters with extra logic (clamped indices, cached reciprocals) are not modelled
here: the value is the argument. Sources are node handles. -/
structure CNode where
  obj : Nat
  vars : List UInt32
  srcs : List (Option Nat)
  hybs : List (Option Nat × UInt32)
deriving Repr, DecidableEq

/-- FastNoise_C.cpp:221-239 `fnSetVariableFloat`, `fnSetVariableIntEnum` (`ValueUnion` of the 32 bits;
the `dynamic_cast` in `setFunc`, Generator.h:511-520, succeeds because the metadata is the node's own). -/
def fnSetVariable (S : Store) (n : CNode) (i : Int) (v : UInt32) : Option (Bool × CNode) :=
  match S.objs[n.obj]? with
  | none => none
  | some o =>
    if toSizeT i < o.vars.size then
      match o.vars.at S.vars (toSizeT i) with
      | none => none
      | some _ => some (true, { n with vars := n.vars.set (toSizeT i) v })
    else some (false, n)

/-- FastNoise_C.cpp:276-285 `fnSetNodeLookup`, `setFunc` of Generator.h:636-649: null or a node of another
kind is refused.  `isWarp h` says whether handle `h` is a domain warp. -/
def fnSetNodeLookup (S : Store) (isWarp : Nat → Bool) (n : CNode) (i : Int) (h : Option Nat) : Option (Bool × CNode) :=
  match S.objs[n.obj]? with
  | none => none
  | some o =>
    if toSizeT i < o.srcs.size then
      match o.srcs.at S.srcs (toSizeT i) with
      | none => none
      | some m =>
        match h with
        | none => some (false, n)
        | some p =>
          if m.kind = .any ∨ isWarp p = true then some (true, { n with srcs := n.srcs.set (toSizeT i) (some p) })
          else some (false, n)
    else some (false, n)

/-- FastNoise_C.cpp:322-331 `fnSetHybridNodeLookup`, `setNodeFunc` of Generator.h:694-706, 735-748. The
constant of the hybrid is kept. -/
def fnSetHybridNodeLookup (S : Store) (n : CNode) (i : Int) (h : Option Nat) : Option (Bool × CNode) :=
  match S.objs[n.obj]? with
  | none => none
  | some o =>
    if toSizeT i < o.hybs.size then
      match o.hybs.at S.hybs (toSizeT i) with
      | none => none
      | some _ =>
        match h with
        | none => some (false, n)
        | some p =>
          some (true, { n with hybs := n.hybs.modify (toSizeT i) fun x => (some p, x.2) })
    else some (false, n)

/-- FastNoise_C.cpp:333-341 `fnSetHybridFloat`, `setValueFunc` of Generator.h:708-716, 750-758: the hybrid is
overwritten by `HybridSourceT( value )`, whose source is null (Generator.h:143-149). -/
def fnSetHybridFloat (S : Store) (n : CNode) (i : Int) (v : UInt32) : Option (Bool × CNode) :=
  match S.objs[n.obj]? with
  | none => none
  | some o =>
    if toSizeT i < o.hybs.size then
      match o.hybs.at S.hybs (toSizeT i) with
      | none => none
      | some _ => some (true, { n with hybs := n.hybs.set (toSizeT i) (none, v) })
    else some (false, n)

end FastNoise.CApi
