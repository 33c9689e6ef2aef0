import Verif.Registry

/-
Model of the metadata storage: all member lists of one element type live in one global array and every
`Metadata::Vector` only stores 8 bit start/end positions into it.
-/
namespace FastNoise.MetaVec
open FastNoise.Registry FastNoise.Ser

/-- Metadata.h:40-63 `Metadata::Vector<T>`: `index_type` is `uint8_t`, both initialised to `(uint8_t)-1`. -/
structure Vec where
  s : Nat := 255
  e : Nat := 255
deriving Repr, DecidableEq

/-- Metadata.cpp:71-80 `Vector<T>::push_back` (the assert is compiled out in release builds):
`mEnd = (uint8_t)vec.size() - 1; mStart = min( mStart, mEnd++ )`, with 8 bit wrap. -/
def Vec.push {T : Type} (st : List T) (v : Vec) (x : T) : List T × Vec :=
  let st' := st ++ [x]
  let e := (st'.length + 255) % 256
  (st', { s := min v.s e, e := (e + 1) % 256 })

/-- Metadata.h:49 `size()`: `mEnd - mStart` as `size_t` (wraps if negative). -/
def Vec.size (v : Vec) : Nat := if v.s ≤ v.e then v.e - v.s else 2 ^ 64 - (v.s - v.e)

/-- Metadata.h:50 `operator[]`: element `mStart + i` of the global array, `none` = out of bounds. -/
def Vec.at {T : Type} (st : List T) (v : Vec) (i : Nat) : Option T := st[v.s + i]?

/-- Metadata.h:47-48 iteration from `begin()` to `end()`: `none` if it leaves the array. -/
def Vec.iter {T : Type} (st : List T) (v : Vec) : Option (List T) :=
  if v.e < v.s then none
  else if v.s = v.e then some []
  else if v.e ≤ st.length then some ((st.drop v.s).take (v.e - v.s)) else none

/-- Metadata.h:91-140 `MemberVariable` as stored: its enum names are again a Vector. -/
structure MVar where
  name : String
  dim : Option Nat
  type : VType
  dflt : UInt32
  enumNames : Vec
deriving Repr, DecidableEq

/-- Metadata.h:273-282: the fields of a `Metadata` object. -/
structure MObj where
  id : Nat
  vars : Vec := {}
  srcs : Vec := {}
  hybs : Vec := {}
  groups : Vec := {}
  name : String := ""
deriving Repr, DecidableEq

/-- The global arrays of `GetVectorStorage<T>()` (Metadata.cpp:33-43) for `const Metadata*` (index of the
object), `const char*`, `MemberVariable`, `MemberNodeLookup`, `MemberHybrid`; `sAllMetadata`
(Metadata.cpp:16) and the metadata objects created so far. -/
structure Store where
  all : List Nat := []
  strs : List String := []
  vars : List MVar := []
  srcs : List SrcDef := []
  hybs : List HybDef := []
  allV : Vec := {}
  objs : List MObj := []
deriving Repr, DecidableEq

/-- `( member.enumNames.push_back( enumNames ), ... )` (Generator.h:560, 585-588). -/
def pushEnums (st : List String) (v : Vec) : List String → List String × Vec
  | [] => (st, v)
  | x :: xs => pushEnums (Vec.push st v x).1 (Vec.push st v x).2 xs

/-- One registration statement: `groups.push_back`, or an `Add...` function (Generator.h:498-762). -/
def runEv (S : Store) (o : MObj) : Ev → Store × MObj
  | .group g =>
    ({ S with strs := (Vec.push S.strs o.groups g).1 }, { o with groups := (Vec.push S.strs o.groups g).2 })
  | .var v =>
    let en := pushEnums S.strs {} v.enums
    let mv : MVar := { name := v.name, dim := v.dim, type := v.type, dflt := v.dflt, enumNames := en.2 }
    ({ S with strs := en.1, vars := (Vec.push S.vars o.vars mv).1 }, { o with vars := (Vec.push S.vars o.vars mv).2 })
  | .src s =>
    ({ S with srcs := (Vec.push S.srcs o.srcs s).1 }, { o with srcs := (Vec.push S.srcs o.srcs s).2 })
  | .hyb h =>
    ({ S with hybs := (Vec.push S.hybs o.hybs h).1 }, { o with hybs := (Vec.push S.hybs o.hybs h).2 })

/-- A metadata constructor body. -/
def runEvs (S : Store) (o : MObj) : List Ev → Store × MObj
  | [] => (S, o)
  | e :: es => runEvs (runEv S o e).1 (runEv S o e).2 es

/-- Metadata.cpp:692-701 `CreateMetadataInstance`: base constructor (Metadata.h:285-299 `AddMetadata`, id =
`(uint8_t)sAllMetadata.size() - 1`), constructor body, then the name. -/
def regNode (S : Store) (n : NodeDef) : Store :=
  let a := Vec.push S.all S.allV S.objs.length
  let S := { S with all := a.1, allV := a.2 }
  let o : MObj := { id := (S.allV.size + 255) % 256 }
  let r := runEvs S o n.evs
  { r.1 with objs := r.1.objs ++ [{ r.2 with name := n.name }] }

/-- Static initialisation of FastSIMD_Build.inl:86-143: register the nodes one after the other. -/
def regAll : List NodeDef → Store → Store
  | [], S => S
  | n :: ns, S => regAll ns (regNode S n)

/-- Metadata.h:194-204 `GetFromId` with an 8 bit id: outer `none` = out of bounds, inner `none` = nullptr. -/
def getFromId (S : Store) (id : Nat) : Option (Option MObj) :=
  if id < S.allV.size then
    match S.allV.at S.all id with
    | none => none
    | some p =>
      match S.objs[p]? with
      | none => none
      | some o => some (some o)
  else some none

end FastNoise.MetaVec
