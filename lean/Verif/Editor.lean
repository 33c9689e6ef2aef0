import Verif.Registry
/-!
# The node editor's graph

Model of the part of `FastNoiseNodeEditor` (tools/NodeEditor/FastNoiseNodeEditor.cpp/.h) that owns and edits the node graph.  ImGui/ImNodes drawing,
timing, IPC, previews' pixels and the selected node are not modelled; what ImNodes reports (a link was created, a node is selected, ...) is an operation.

`NodeData*` are positions in an arena; memory is not reused (so an address never becomes valid again).  A freed `NodeData` is an arena slot without metadata: dereferencing it
(`Ser.testSource`) is the `ub` outcome, comparing its address is not.
-/
namespace FastNoise.Editor
open FastNoise.Ser FastNoise.Deser FastNoise.Stream

/-! ## Ids -/

/-- `AttributeBitCount`: FastNoiseNodeEditor.h:45 -/
def attributeBitCount : Nat := 8
/-- `AttributeBitMask`: FastNoiseNodeEditor.h:46 -/
def attributeBitMask : Nat := 2 ^ attributeBitCount - 1
/-- `GetStartingAttributeId`, as the 32 bit pattern of the `int`: FastNoiseNodeEditor.h:53-56 -/
def startAttr (nodeId : Nat) : Nat := (nodeId <<< attributeBitCount) % 2 ^ 32
/-- `GetOutputAttributeId`: FastNoiseNodeEditor.h:58-61 -/
def outAttr (nodeId : Nat) : Nat := startAttr nodeId ||| attributeBitMask
/-- `GetNodeIdFromAttribute`: FastNoiseNodeEditor.h:48-51 -/
def nodeIdOf (attr : Nat) : Nat := attr >>> attributeBitCount
/-- `INT_MAX >> AttributeBitCount` -/
def maxId : Nat := (2 ^ 31 - 1) >>> attributeBitCount

/-- One turn of `GetFreeNodeId`'s loop: FastNoiseNodeEditor.cpp:1560 -/
def nextId (n : Nat) : Nat := max 1 ((n + 1) &&& maxId)

/-- `GetFreeNodeId`: FastNoiseNodeEditor.cpp:1554-1565.  The result is also the new value of the static counter; `none` = still looping after `fuel` turns. -/
def freeId (used : List Nat) : Nat → Nat → Option Nat
  | 0, _ => none
  | fuel + 1, n => if nextId n ∈ used then freeId used fuel (nextId n) else some (nextId n)

/-! ## State -/

/-- The graph: the live and dead `NodeData`, `mNodes` as (pointer, node id) pairs, newest first, the static id counter and `mDroppedLinkNode`. -/
structure Ed where
  arena : Arena
  nodes : List (Nat × Nat)
  counter : Nat
  dropped : Option Nat
deriving Repr, DecidableEq

/-- `FastNoiseNodeEditor` as constructed (FastNoiseNodeEditor.cpp:544-548): the overhead node has taken id 1. -/
def init : Ed := { arena := [], nodes := [], counter := 1, dropped := none }

/-- `GetNodeIDLinks`: FastNoiseNodeEditor.cpp:200-218 -/
def links (nd : NodeData) : List (Option Nat) := nd.lookups ++ nd.hybrids.map (·.1)

/-- Assignment through `GetNodeLink( attributeId )`: FastNoiseNodeEditor.cpp:237-250.  `none` = index out of range. -/
def setLink (nd : NodeData) (attr : Nat) (v : Option Nat) : Option NodeData :=
  let i := attr &&& 15
  if i < nd.lookups.length then some { nd with lookups := nd.lookups.set i v }
  else match nd.hybrids[i - nd.lookups.length]? with
    | some h => some { nd with hybrids := nd.hybrids.set (i - nd.lookups.length) (v, h.2) }
    | none => none

/-- Reading through `GetNodeLink( attributeId )`. -/
def getLink (nd : NodeData) (attr : Nat) : Option (Option Nat) :=
  let i := attr &&& 15
  if i < nd.lookups.length then nd.lookups[i]? else (nd.hybrids[i - nd.lookups.length]?).map (·.1)

/-- Outcome of an operation: undefined behaviour, recursion deeper than the fuel, or completion. -/
inductive Out (α : Type) where
  | ub
  | deep
  | ok (a : α)
deriving Repr, DecidableEq

def Out.bind {α β : Type} (x : Out α) (f : α → Out β) : Out β :=
  match x with
  | .ub => .ub
  | .deep => .deep
  | .ok a => f a

/-- A loop over a list that threads the arena. -/
def forEach {α : Type} (f : α → Arena → Out Arena) : List α → Arena → Out Arena
  | [], A => .ok A
  | x :: xs, A => (f x A).bind (forEach f xs)

/-! ## Previews -/

/-- The part of `GeneratePreview` before the dependents: `SerialiseNodeData( data.get(), true )` (FastNoiseNodeEditor.cpp:137).  Building and running the
generator does not touch the graph. -/
def fixOne (reg : Reg) (p : Nat) (A : Arena) : Out Arena :=
  match serStream reg true (A.length + 1) A p with
  | .ub => .ub
  | .nofuel => .deep
  | .done _ st => .ok st.arena

/-- `GeneratePreview`: FastNoiseNodeEditor.cpp:133-197.  `order` is the iteration order of `mNodes` (176); the links of each node are read once before its
inner loop (178). -/
def preview (reg : Reg) (order : List Nat) : Nat → Nat → Arena → Out Arena
  | 0, _, _ => .deep
  | fuel + 1, p, A =>
    (fixOne reg p A).bind
      (forEach (fun q A =>
        match A[q]? with
        | none => .ub
        | some nd => forEach (fun l A => if l = some p then preview reg order fuel q A else .ok A) (links nd) A) order)

/-! ## Operations -/

/-- What the user, ImNodes and the settings file can do between two frames. -/
inductive Op where
  /-- context menu: `AddNode` (1317-1331) -/
  | add (md : Nat)
  /-- `AddNodeFromEncodedString` (1333-1358) -/
  | addEncoded (text : List UInt8)
  /-- `IsLinkCreated` in `CheckLinks` (952-967) -/
  | link (startNodeId endNodeId endAttr : Nat) (fromSnap : Bool)
  /-- one entry of `linksToDelete` in `UpdateSelected` (1029-1052) -/
  | unlink (attr : Nat)
  /-- one entry of `selected` in `UpdateSelected` (1062-1068) -/
  | delete (nodeId : Nat)
  /-- "Convert To" (1145-1185); `sameNames` = the member names are pairwise equal -/
  | convert (nodeId md : Nat) (sameNames : Bool)
  /-- a variable dragged or chosen (1247-1274) -/
  | setVar (nodeId i : Nat) (v : UInt32)
  /-- a hybrid value dragged (1226-1229) -/
  | setHybrid (nodeId i : Nat) (v : UInt32)
  /-- `IsLinkDropped` (969-979) -/
  | drop (attr : Nat)
  /-- choice in the popup of a dropped link (1481-1487) -/
  | addDropped (md : Nat)
  /-- a benchmark run of one node (656-664) -/
  | bench (nodeId : Nat)
  /-- "Clear All Nodes" (815-820) -/
  | clear

/-- `FindNodeFromId`: FastNoiseNodeEditor.cpp:1539-1552 -/
def findNode (nodes : List (Nat × Nat)) (id : Nat) : Option Nat := (nodes.find? fun n => n.2 = id).map (·.1)

/-- `mNodes.erase`: destroys the `NodeData`. -/
def kill (A : Arena) (p : Nat) : Arena := A.set p { md := none, vars := [], lookups := [], hybrids := [] }

/-- `AddNode` with the default `generatePreview`, and the node constructor (FastNoiseNodeEditor.cpp:116-131, 1317-1331): the id is chosen and the preview made before the node
is in `mNodes`.  `ρ` gives the iteration order of the hash table. -/
def addData (reg : Reg) (ρ : List (Nat × Nat) → List (Nat × Nat)) (fuel : Nat) (st : Ed) (p : Nat) : Out Ed :=
  match freeId (st.nodes.map (·.2)) fuel st.counter with
  | none => .deep
  | some id =>
    (preview reg ((ρ st.nodes).map (·.1)) fuel p st.arena).bind fun A =>
      .ok { st with arena := A, nodes := (p, id) :: st.nodes, counter := id }

/-- Adding several nodes (1339-1343). -/
def addAll (reg : Reg) (ρ : List (Nat × Nat) → List (Nat × Nat)) (fuel : Nat) : List Nat → Ed → Out Ed
  | [], st => .ok st
  | p :: ps, st => (addData reg ρ fuel st p).bind (addAll reg ρ fuel ps)

/-- The decoded `NodeData` as new heap objects behind the existing ones. -/
def shift (base : Nat) (nd : NodeData) : NodeData :=
  { nd with lookups := nd.lookups.map (Option.map (base + ·)), hybrids := nd.hybrids.map fun h => (h.1.map (base + ·), h.2) }

/-- Links of `nd` equal to `x` set to null one by one: the loop 991-999.  The links were read beforehand, `attr` counts up from the starting id. -/
def dropLinks (x : Nat) : List (Option Nat) → Nat → NodeData → Option NodeData
  | [], _, nd => some nd
  | l :: ls, attr, nd =>
    if l = some x then (setLink nd attr none).bind (dropLinks x ls (attr + 1)) else dropLinks x ls (attr + 1) nd

/-- Links of `nd` with attribute id `del` set to null: the loop 1036-1045. -/
def dropAttr (del : Nat) : List (Option Nat) → Nat → NodeData → Option NodeData
  | [], _, nd => some nd
  | _ :: ls, attr, nd =>
    if attr = del then (setLink nd attr none).bind (dropAttr del ls (attr + 1)) else dropAttr del ls (attr + 1) nd

/-- `DeleteNode`: FastNoiseNodeEditor.cpp:982-1006 -/
def deleteNode (reg : Reg) (ρ : List (Nat × Nat) → List (Nat × Nat)) (fuel : Nat) (st : Ed) (x : Nat) : Out Ed :=
  let nodes := st.nodes.filter fun n => n.1 ≠ x
  let order := ρ nodes
  (forEach (fun n A =>
    match A[n.1]? with
    | none => .ub
    | some nd =>
      match dropLinks x (links nd) (startAttr n.2) nd with
      | none => .ub
      | some nd' =>
        if some x ∈ links nd then preview reg (order.map (·.1)) fuel n.1 (A.set n.1 nd') else .ok A)
    order (kill st.arena x)).bind fun A => .ok { st with arena := A, nodes := nodes }

/-- One link deletion: FastNoiseNodeEditor.cpp:1031-1051 -/
def unlink (reg : Reg) (ρ : List (Nat × Nat) → List (Nat × Nat)) (fuel : Nat) (st : Ed) (del : Nat) : Out Ed :=
  let order := ρ st.nodes
  (forEach (fun n A =>
    match A[n.1]? with
    | none => .ub
    | some nd =>
      match dropAttr del (links nd) (startAttr n.2) nd with
      | none => .ub
      | some nd' =>
        if startAttr n.2 ≤ del ∧ del < startAttr n.2 + (links nd).length then preview reg (order.map (·.1)) fuel n.1 (A.set n.1 nd') else .ok A)
    order st.arena).bind fun A => .ok { st with arena := A }

/-- The links moved over by a conversion: FastNoiseNodeEditor.cpp:1157-1179. -/
def fillLinks : List (Option Nat) → List (Option Nat) → List (Option Nat)
  | l :: ls, _ :: slots => l :: fillLinks ls slots
  | [], slots => slots
  | _, [] => []

/-- The converted `NodeData`: FastNoiseNodeEditor.cpp:1147-1182. -/
def converted (reg : Reg) (nd : NodeData) (md : Nat) (sameNames : Bool) : Option NodeData :=
  (newNodeData reg md).map fun new =>
    if sameNames = true ∧ new.vars.length = nd.vars.length ∧ new.lookups.length = nd.lookups.length ∧ new.hybrids.length = nd.hybrids.length then
      { nd with md := some md }
    else
      let lk := fillLinks (links nd) new.lookups
      let hy := fillLinks ((links nd).drop new.lookups.length) (new.hybrids.map (·.1))
      { new with lookups := lk, hybrids := hy.zip (new.hybrids.map (·.2)) }

/-- Change one node's data in place, then make its preview. -/
def editNode (reg : Reg) (ρ : List (Nat × Nat) → List (Nat × Nat)) (fuel : Nat) (st : Ed) (p : Nat) (f : NodeData → Option NodeData) : Out Ed :=
  match st.arena[p]? with
  | none => .ub
  | some nd =>
    match f nd with
    | none => .ub
    | some nd' => (preview reg ((ρ st.nodes).map (·.1)) fuel p (st.arena.set p nd')).bind fun A => .ok { st with arena := A }

/-- One operation. -/
def step (reg : Reg) (ρ : List (Nat × Nat) → List (Nat × Nat)) (fuel : Nat) (st : Ed) : Op → Out Ed
  | .add md =>
    match newNodeData reg md with
    | none => .ok st
    | some nd => addData reg ρ fuel { st with arena := st.arena ++ [nd] } st.arena.length
  | .addEncoded text =>
    match deserialiseNodeData reg text with
    | .ub => .ub
    | .nonterm => .deep
    | .null => .ok st
    | .tree _ nds => addAll reg ρ fuel ((List.range nds.length).map (st.arena.length + ·)) { st with arena := st.arena ++ nds.map (shift st.arena.length) }
  | .link s e attr snap =>
    match findNode st.nodes s, findNode st.nodes e with
    | some ps, some pe =>
      match st.arena[pe]?.bind (getLink · attr) with
      | none => .ub
      | some l =>
        if snap = false ∨ l = none then editNode reg ρ fuel st pe (setLink · attr (some ps)) else .ok st
    | _, _ => .ok st
  | .unlink attr => unlink reg ρ fuel st attr
  | .delete id =>
    match findNode st.nodes id with
    | some p => deleteNode reg ρ fuel st p
    | none => .ok st
  | .convert id md same =>
    match findNode st.nodes id, reg[md]? with
    | some p, some _ => editNode reg ρ fuel st p (converted reg · md same)
    | _, _ => .ok st
  | .setVar id i v =>
    match findNode st.nodes id with
    | some p => editNode reg ρ fuel st p fun nd => if i < nd.vars.length then some { nd with vars := nd.vars.set i v } else none
    | none => .ok st
  | .setHybrid id i v =>
    match findNode st.nodes id with
    | some p => editNode reg ρ fuel st p fun nd => (nd.hybrids[i]?).map fun h => { nd with hybrids := nd.hybrids.set i (h.1, v) }
    | none => .ok st
  | .drop attr =>
    match findNode st.nodes (nodeIdOf attr) with
    | some p => if attr &&& attributeBitMask = attributeBitMask then .ok { st with dropped := some p } else .ok st
    | none => .ok st
  | .addDropped md =>
    match newNodeData reg md with
    | none => .ok st
    | some nd =>
      (addData reg ρ fuel { st with arena := st.arena ++ [nd] } st.arena.length).bind fun st' =>
        editNode reg ρ fuel st' st.arena.length (setLink · 0 st.dropped)
  | .bench id =>
    match findNode st.nodes id with
    | some p => (fixOne reg p st.arena).bind fun A => .ok { st with arena := A }
    | none => .ok st
  | .clear => .ok { st with arena := st.nodes.foldl (fun A n => kill A n.1) st.arena, nodes := [] }

end FastNoise.Editor
