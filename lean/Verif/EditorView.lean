import Verif.Editor
/-!
# What the node editor remembers and shows

Model of the caches of `FastNoiseNodeEditor` (tools/NodeEditor/FastNoiseNodeEditor.cpp/.h) beside the graph of `Editor.lean`: the encoded text kept with every node (used by "Copy Encoded
Node Tree", the previews and the other programs), the selected node, and the tree handed to the texture and mesh previews and sent to other programs.

Not modelled: pixels and timings.  Memory is not reused, as in `Editor.lean` (so a pointer to a deleted node, which `mSelectedNode` may be, never is the pointer of a new node).
The calls that generate pixels do not touch the modelled state.
-/
namespace FastNoise.Editor
open FastNoise.Ser FastNoise.Deser FastNoise.Stream

/-- The library the editor runs with: registered metadata, defaults of the generator classes, and `IsDetachedNodeGraph()`. -/
structure Env where
  reg : Reg
  cd : List ClassDefaults
  detached : Bool

/-- What is remembered beside the graph. -/
structure View where
  /-- `Node::serialised` (FastNoiseNodeEditor.h:92), by pointer -/
  text : Nat → List UInt8
  /-- `mSelectedNode` -/
  selected : Option Nat
  /-- `mCachedActiveEnt` -/
  active : List UInt8
  /-- the tree of the generator last passed to `NoiseTexture::ReGenerate` and `MeshNoisePreview::ReGenerate` -/
  picture : List UInt8
  /-- the trees passed to `fnEditorIpcSendSelectedNode`, newest first (nothing is passed on without an IPC context, 1581) -/
  sent : List (List UInt8)
  /-- `mSettingsDirty`: the settings file should be written (FastNoiseNodeEditor.h:136) -/
  dirty : Bool

/-- A new editor. -/
def View.init : View := { text := fun _ => [], selected := none, active := [], picture := [], sent := [], dirty := false }

/-- Whether `NewFromEncodedNodeTree( text )` gives a generator: FastNoiseNodeEditor.cpp:138, 1605 -/
def builds (E : Env) (text : List UInt8) : Out Bool :=
  match newFromEncodedNodeTree E.reg E.cd true text with
  | .ub => .ub
  | .nonterm => .deep
  | .null => .ok false
  | .tree _ _ => .ok true

/-- `GetSelectedEncodedNodeTree`: FastNoiseNodeEditor.cpp:1494-1504.  `shown` = the keys of `mNodes`. -/
def selText (shown : List Nat) (v : View) : List UInt8 :=
  match v.selected with
  | some p => if p ∈ shown then v.text p else []
  | none => []

/-- The lambda `SetActiveEnt`: FastNoiseNodeEditor.cpp:1594-1602 -/
def setActive (shown : List Nat) (t : List UInt8) (v : View) : View :=
  { v with selected := if selText shown v ≠ t then none else v.selected, active := t }

/-- `SetPreviewGenerator`: FastNoiseNodeEditor.cpp:1592-1630 -/
def setPreview (E : Env) (shown : List Nat) (t : List UInt8) (v : View) : Out View :=
  (builds E t).bind fun b =>
    if b then
      let v := if E.detached then v else { v with picture := t }
      .ok (if t ≠ [] then setActive shown t v else v)
    else if t = [] then .ok (setActive shown t v)
    else .ok v

/-- `ChangeSelectedNode`: FastNoiseNodeEditor.cpp:1567-1590 -/
def changeSelected (E : Env) (shown : List Nat) (p : Nat) (v : View) : Out View :=
  let v := { v with selected := some p }
  let t := selText shown v
  if t ≠ [] then setPreview E shown t { v with sent := t :: v.sent } else .ok v

/-- A loop over a list that threads a state. -/
def loop {α σ : Type} (f : α → σ → Out σ) : List α → σ → Out σ
  | [], s => .ok s
  | x :: xs, s => (f x s).bind (loop f xs)

/-- `View` with a new text for one node. -/
def View.setText (v : View) (p : Nat) (t : List UInt8) : View := { v with text := fun q => if q = p then t else v.text q }

/-- The part of `GeneratePreview` that makes the text: FastNoiseNodeEditor.cpp:137-165 (it is cleared if no generator can be made from it). -/
def renew (E : Env) (p : Nat) (s : Arena × View) : Out (Arena × View) :=
  match serialise E.reg true s.1 p with
  | .ub => .ub
  | .nonterm => .deep
  | .text t A => (builds E t).bind fun b => .ok (A, s.2.setText p (if b then t else []))

/-- `GeneratePreview( tree, false )`: FastNoiseNodeEditor.cpp:133-197.  `order` is the iteration order of `mNodes`. -/
def previewV (E : Env) (tree : Bool) (order : List Nat) : Nat → Nat → Arena × View → Out (Arena × View)
  | 0, _, _ => .deep
  | fuel + 1, p, s =>
    (renew E p s).bind fun s =>
      (loop (fun q s =>
        match s.1[q]? with
        | none => .ub
        | some nd => loop (fun l s => if l = some p then previewV E tree order fuel q s else .ok s) (links nd) s) order s).bind fun s =>
          if tree = true then
            (if s.2.selected = some p then changeSelected E order p s.2 else .ok s.2).bind fun v => .ok (s.1, { v with dirty := true })
          else .ok s

/-- The node constructor and its insertion into `mNodes` (116-131), see `addData`. -/
def addDataV (E : Env) (ρ : List (Nat × Nat) → List (Nat × Nat)) (fuel : Nat) (p : Nat) (s : Ed × View) : Out (Ed × View) :=
  match freeId (s.1.nodes.map (·.2)) fuel s.1.counter with
  | none => .deep
  | some id =>
    (previewV E true ((ρ s.1.nodes).map (·.1)) fuel p (s.1.arena, s.2)).bind fun r =>
      .ok ({ s.1 with arena := r.1, nodes := (p, id) :: s.1.nodes, counter := id }, r.2)

/-- `AddNode`: FastNoiseNodeEditor.cpp:1317-1331.  The first node of a graph is selected. -/
def addNodeV (E : Env) (ρ : List (Nat × Nat) → List (Nat × Nat)) (fuel : Nat) (nd : NodeData) (s : Ed × View) : Out (Ed × View) :=
  (addDataV E ρ fuel s.1.arena.length ({ s.1 with arena := s.1.arena ++ [nd] }, s.2)).bind fun s' =>
    if s'.1.nodes.length = 1 then (changeSelected E (s'.1.nodes.map (·.1)) s.1.arena.length s'.2).bind fun v => .ok (s'.1, v) else .ok s'

/-- Change one node's data in place, then make its preview; see `editNode`. -/
def editNodeV (E : Env) (ρ : List (Nat × Nat) → List (Nat × Nat)) (fuel : Nat) (p : Nat) (f : NodeData → Option NodeData) (s : Ed × View) : Out (Ed × View) :=
  match s.1.arena[p]? with
  | none => .ub
  | some nd =>
    match f nd with
    | none => .ub
    | some nd' => (previewV E true ((ρ s.1.nodes).map (·.1)) fuel p (s.1.arena.set p nd', s.2)).bind fun r => .ok ({ s.1 with arena := r.1 }, r.2)

/-- `DeleteNode`: FastNoiseNodeEditor.cpp:982-1006.  `mSelectedNode` and the previews stay as they are. -/
def deleteNodeV (E : Env) (ρ : List (Nat × Nat) → List (Nat × Nat)) (fuel : Nat) (x : Nat) (s : Ed × View) : Out (Ed × View) :=
  let nodes := s.1.nodes.filter fun n => n.1 ≠ x
  let order := ρ nodes
  (loop (fun n r =>
    match r.1[n.1]? with
    | none => .ub
    | some nd =>
      match dropLinks x (links nd) (startAttr n.2) nd with
      | none => .ub
      | some nd' =>
        if some x ∈ links nd then previewV E true (order.map (·.1)) fuel n.1 (r.1.set n.1 nd', r.2) else .ok r)
    order (kill s.1.arena x, s.2)).bind fun r => .ok ({ s.1 with arena := r.1, nodes := nodes }, r.2)

/-- One link deletion: FastNoiseNodeEditor.cpp:1031-1051 -/
def unlinkV (E : Env) (ρ : List (Nat × Nat) → List (Nat × Nat)) (fuel : Nat) (del : Nat) (s : Ed × View) : Out (Ed × View) :=
  let order := ρ s.1.nodes
  (loop (fun n r =>
    match r.1[n.1]? with
    | none => .ub
    | some nd =>
      match dropAttr del (links nd) (startAttr n.2) nd with
      | none => .ub
      | some nd' =>
        if startAttr n.2 ≤ del ∧ del < startAttr n.2 + (links nd).length then previewV E true (order.map (·.1)) fuel n.1 (r.1.set n.1 nd', r.2) else .ok r)
    order (s.1.arena, s.2)).bind fun r => .ok ({ s.1 with arena := r.1 }, r.2)

/-- What can happen between two frames: an operation on the graph, or on what is shown. -/
inductive OpV where
  | graph (op : Op)
  /-- a node's picture is clicked: 1292-1295 -/
  | select (nodeId : Nat)
  /-- another program selected a tree: 676-679 -/
  | received (text : List UInt8)
  /-- generation type, seed or scale of the node pictures edited: 780-792 -/
  | settings
  /-- `SetSIMDLevel`: 1072-1086, after its `DoNodeBenchmarks` (which is `.graph (.bench _)`) -/
  | simd

/-- One operation. -/
def stepV (E : Env) (ρ : List (Nat × Nat) → List (Nat × Nat)) (fuel : Nat) (s : Ed × View) : OpV → Out (Ed × View)
  | .graph (.add md) =>
    match newNodeData E.reg md with
    | none => .ok s
    | some nd => addNodeV E ρ fuel nd s
  | .graph (.addEncoded text) =>
    -- `AddNodeFromEncodedString`, 1333-1358; `nodeData` keeps its size when its pointers are moved from (1347)
    match deserialiseNodeData E.reg text with
    | .ub => .ub
    | .nonterm => .deep
    | .null => .ok s
    | .tree root nds =>
      (loop (addDataV E ρ fuel) ((List.range nds.length).map (s.1.arena.length + ·)) ({ s.1 with arena := s.1.arena ++ nds.map (shift s.1.arena.length) }, s.2)).bind fun s' =>
        if s'.1.nodes.length = nds.length then (changeSelected E (s'.1.nodes.map (·.1)) (s.1.arena.length + root) s'.2).bind fun v => .ok (s'.1, v) else .ok s'
  | .graph (.link a b attr snap) =>
    match findNode s.1.nodes a, findNode s.1.nodes b with
    | some ps, some pe =>
      match s.1.arena[pe]?.bind (getLink · attr) with
      | none => .ub
      | some l =>
        if snap = false ∨ l = none then editNodeV E ρ fuel pe (setLink · attr (some ps)) s else .ok s
    | _, _ => .ok s
  | .graph (.unlink attr) => unlinkV E ρ fuel attr s
  | .graph (.delete id) =>
    match findNode s.1.nodes id with
    | some p => deleteNodeV E ρ fuel p s
    | none => .ok s
  | .graph (.convert id md same) =>
    match findNode s.1.nodes id, E.reg[md]? with
    | some p, some _ => editNodeV E ρ fuel p (converted E.reg · md same) s
    | _, _ => .ok s
  | .graph (.setVar id i v) =>
    match findNode s.1.nodes id with
    | some p => editNodeV E ρ fuel p (fun nd => if i < nd.vars.length then some { nd with vars := nd.vars.set i v } else none) s
    | none => .ok s
  | .graph (.setHybrid id i v) =>
    match findNode s.1.nodes id with
    | some p => editNodeV E ρ fuel p (fun nd => (nd.hybrids[i]?).map fun h => { nd with hybrids := nd.hybrids.set i (h.1, v) }) s
    | none => .ok s
  | .graph (.drop attr) =>
    match findNode s.1.nodes (nodeIdOf attr) with
    | some p => if attr &&& attributeBitMask = attributeBitMask then .ok ({ s.1 with dropped := some p }, s.2) else .ok s
    | none => .ok s
  | .graph (.addDropped md) =>
    match newNodeData E.reg md with
    | none => .ok s
    | some nd => (addNodeV E ρ fuel nd s).bind (editNodeV E ρ fuel s.1.arena.length (setLink · 0 s.1.dropped))
  | .graph (.bench id) =>
    match findNode s.1.nodes id with
    | some p => (renew E p (s.1.arena, s.2)).bind fun r => .ok ({ s.1 with arena := r.1 }, r.2)
    | none => .ok s
  | .graph .clear =>
    (setPreview E [] [] { s.2 with selected := none }).bind fun v =>
      .ok ({ s.1 with arena := s.1.nodes.foldl (fun A n => kill A n.1) s.1.arena, nodes := [] }, v)
  | .select id =>
    match findNode s.1.nodes id with
    | some p => (changeSelected E (s.1.nodes.map (·.1)) p s.2).bind fun v => .ok (s.1, v)
    | none => .ok s
  | .received text => (setPreview E (s.1.nodes.map (·.1)) text s.2).bind fun v => .ok (s.1, v)
  | .settings =>
    (loop (previewV E false ((ρ s.1.nodes).map (·.1)) fuel) ((ρ s.1.nodes).map (·.1)) (s.1.arena, s.2)).bind fun r => .ok ({ s.1 with arena := r.1 }, { r.2 with dirty := true })
  | .simd =>
    (loop (previewV E false ((ρ s.1.nodes).map (·.1)) fuel) ((ρ s.1.nodes).map (·.1)) (s.1.arena, s.2)).bind fun r =>
      (setPreview E (s.1.nodes.map (·.1)) r.2.active r.2).bind fun v => .ok ({ s.1 with arena := r.1 }, v)

end FastNoise.Editor
