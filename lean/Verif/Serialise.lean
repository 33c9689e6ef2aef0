import Verif.Stream
import Verif.Base64

/-
Model of the node tree serialiser (src/FastNoise/Metadata.cpp:161-308) over an arena of NodeData.
-/
namespace FastNoise.Ser
open FastNoise.Stream

/-- Which generators a source slot accepts: `GeneratorSourceT<Generator>` accepts any node,
`GeneratorSourceT<DomainWarp>` only domain warps (Generator.h metadata setFunc `dynamic_cast`). -/
inductive Kind where
  | any
  | warp
deriving Repr, DecidableEq

/-- The part of a `Metadata` object the (de)serialiser uses (Metadata.h:274-278): default bit patterns
of the variables, kind of every node lookup, default bit patterns of the hybrids, and whether the node
class derives from `DomainWarp`. -/
structure Meta where
  vars : List UInt32
  lookups : List Kind
  hybrids : List UInt32
  isWarp : Bool := false
deriving Repr, DecidableEq

/-- `Metadata::sAllMetadata`; a node's id is its index (Metadata.h:285-299). -/
abbrev Reg := List Meta

/-- Does `setFunc` accept a source of this metadata (the `dynamic_cast` succeeds)? -/
def accepts (k : Kind) (src : Meta) : Bool :=
  match k with
  | .any => true
  | .warp => src.isWarp

/-- Metadata.h:312-347 `NodeData`.  Pointers to other NodeData are arena indices; `md = none` is a null
metadata pointer. Floats and ints are 32 bit patterns. -/
structure NodeData where
  md : Option Nat
  vars : List UInt32
  lookups : List (Option Nat)
  hybrids : List (Option Nat × UInt32)
deriving Repr, DecidableEq

abbrev Arena := List NodeData

/-- IEEE-754 binary32 NaN test on the bit pattern. -/
def isNaN32 (v : UInt32) : Bool := v.toNat % 2147483648 > 0x7F800000
/-- IEEE-754 `==` on bit patterns: NaN is unequal to everything, both zeros are equal. -/
def feq (a b : UInt32) : Bool :=
  !isNaN32 a && !isNaN32 b && (a == b || (a.toNat % 2147483648 == 0 && b.toNat % 2147483648 == 0))

/-- Mutable state of a serialisation: the nodes (fixUp edits them), the output and the reference ids
(`unordered_map`, newest first). -/
structure St where
  arena : Arena
  ws : WS
  refs : List (Nat × Nat)
deriving Repr, DecidableEq

/-- Outcome: `ub` = null/dangling pointer dereference, `nofuel` = recursion deeper than the fuel. -/
inductive SR where
  | ub
  | nofuel
  | done (ok : Bool) (st : St)
deriving Repr, DecidableEq

/-- Metadata.cpp:292 `referenceIds.emplace( nodeData, (uint16_t)referenceIds.size() )`: keeps an existing
entry, otherwise the value is the old size truncated to 16 bits. -/
def emplace (refs : List (Nat × Nat)) (ptr : Nat) : List (Nat × Nat) :=
  match refs.lookup ptr with
  | some _ => refs
  | none => (ptr, refs.length % 65536) :: refs

/-- Metadata.cpp:214-222: changed variables (`.i` comparison, i.e. bit patterns). -/
def serVars (ws : WS) : Nat → List UInt32 → List UInt32 → WS
  | i, v :: vs, d :: ds =>
    serVars (if v ≠ d then (ws.addLookup tVariable i).add (le32 v) else ws) (i + 1) vs ds
  | _, _, _ => ws

/-- Metadata.cpp:181-194: null all links into `deps`. -/
def cutLoops (deps : List Nat) (nd : NodeData) : NodeData :=
  { nd with
    lookups := nd.lookups.map fun l => match l with
      | some p => if p ∈ deps then none else some p
      | none => none
    hybrids := nd.hybrids.map fun h => match h with
      | (some p, v) => if p ∈ deps then (none, v) else (some p, v)
      | (none, v) => (none, v) }

/-- Result of fixUp's test of one source (Metadata.cpp:232-243, 267-278): `none` = null metadata
dereference, otherwise whether `setFunc` accepts a node of the child's class. -/
def testSource (reg : Reg) (arena : Arena) (k : Kind) (child : Nat) : Option Bool := do
  let nd ← arena[child]?
  let id ← nd.md
  let m ← reg[id]?
  pure (accepts k m)

/-- Metadata.cpp:230-249: member nodes `i, i+1, ..` of node `ptr`. -/
def serLookups (reg : Reg) (fixUp : Bool) (rec : Nat → List Nat → St → SR) (ptr : Nat) (deps : List Nat) :
    Nat → List Kind → St → SR
  | _, [], st => .done true st
  | i, k :: ks, st =>
    match st.arena[ptr]? with
    | none => .ub
    | some nd =>
      match nd.lookups[i]? with
      | none => .ub
      | some none => .done false st
      | some (some child) =>
        match (if fixUp then testSource reg st.arena k child else some true) with
        | none => .ub
        | some false =>
          .done false { st with arena := st.arena.set ptr { nd with lookups := nd.lookups.set i none } }
        | some true =>
          match rec child deps st with
          | .done true st' => serLookups reg fixUp rec ptr deps (i + 1) ks st'
          | r => r

/-- Metadata.cpp:251-287: member hybrids `i, i+1, ..` of node `ptr` (defaults given). -/
def serHybrids (reg : Reg) (fixUp : Bool) (rec : Nat → List Nat → St → SR) (ptr : Nat) (deps : List Nat) :
    Nat → List UInt32 → St → SR
  | _, [], st => .done true st
  | i, d :: ds, st =>
    match st.arena[ptr]? with
    | none => .ub
    | some nd =>
      match nd.hybrids[i]? with
      | none => .ub
      | some (none, v) =>
        let ws := if feq v d then st.ws else (st.ws.addLookup tHybridVariable i).add (le32 v)
        serHybrids reg fixUp rec ptr deps (i + 1) ds { st with ws := ws }
      | some (some child, v) =>
        match (if fixUp then testSource reg st.arena .any child else some true) with
        | none => .ub
        | some false =>
          .done false { st with arena := st.arena.set ptr { nd with hybrids := nd.hybrids.set i (none, v) } }
        | some true =>
          match rec child deps { st with ws := st.ws.addLookup tHybridLookup i } with
          | .done true st' => serHybrids reg fixUp rec ptr deps (i + 1) ds st'
          | r => r

/-- Metadata.cpp:161-295 `SerialiseNodeDataInternal`.  `deps` is the by-value dependency set. -/
def ser (reg : Reg) (fixUp : Bool) : Nat → Nat → List Nat → St → SR
  | 0, _, _, _ => .nofuel
  | fuel + 1, ptr, deps, st =>
    match st.arena[ptr]? with
    | none => .ub
    | some nd =>
      match nd.md with
      | none => .done false st
      | some id =>
        match reg[id]? with
        | none => .ub
        | some m =>
          if nd.vars.length ≠ m.vars.length ∨ nd.lookups.length ≠ m.lookups.length ∨
              nd.hybrids.length ≠ m.hybrids.length then .done false st
          else
            let deps := if fixUp then ptr :: deps else deps
            let st := if fixUp then { st with arena := st.arena.set ptr (cutLoops deps nd) } else st
            match st.refs.lookup ptr with
            | some r => .done true { st with ws := (st.ws.add [255]).add (le16 r) }
            | none =>
              let ws := serVars (st.ws.add [UInt8.ofNat id]) 0 nd.vars m.vars
              let ws := if m.lookups.length ≠ 0 then ws.addLookup tLookup m.lookups.length else ws
              match serLookups reg fixUp (ser reg fixUp fuel) ptr deps 0 m.lookups { st with ws := ws } with
              | .done true st =>
                match serHybrids reg fixUp (ser reg fixUp fuel) ptr deps 0 m.hybrids st with
                | .done true st =>
                  .done true { st with ws := st.ws.nodeEnd, refs := emplace st.refs ptr }
                | r => r
              | r => r

/-- Outcome of `SerialiseNodeData`: the text (empty = error) and the nodes afterwards. -/
inductive SerOut where
  | ub
  | nonterm
  | text (s : List UInt8) (arena : Arena)
deriving Repr, DecidableEq

/-- The raw byte stream built by `SerialiseNodeData` before Base64 (Metadata.cpp:299-306), with an
explicit recursion budget. -/
def serStream (reg : Reg) (fixUp : Bool) (fuel : Nat) (arena : Arena) (root : Nat) : SR :=
  match ser reg fixUp fuel root [] { arena := arena, ws := { stream := [], stack := 0 }, refs := [] } with
  | .done true st => .done true { st with ws := st.ws.flush }
  | r => r

/-- Metadata.cpp:302-307: empty text on failure, otherwise the encoded stream. -/
def finishWith (enc : List UInt8 → Option (List UInt8)) (r : SR) : SerOut :=
  match r with
  | .ub => .ub
  | .nofuel => .nonterm
  | .done false st => .text [] st.arena
  | .done true st =>
    match enc st.ws.stream with
    | none => .ub
    | some t => .text t st.arena

/-- Metadata.cpp:297-308 `SerialiseNodeData`.  A recursion deeper than the number of nodes means the
real function recurses forever (`nonterm`), see the termination theorems. -/
def serialise (reg : Reg) (fixUp : Bool) (arena : Arena) (root : Nat) : SerOut :=
  finishWith Base64.encode (serStream reg fixUp (arena.length + 1) arena root)

end FastNoise.Ser
