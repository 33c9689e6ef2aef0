import Verif.Serialise

/-
Model of the two deserialisers (src/FastNoise/Metadata.cpp:355-632).

`DeserialiseSmartNodeInternal` (355-497) and `DeserialiseNodeDataInternal` (508-625) have the same
control flow; they differ only in the statements that create and configure a node.  The common control
flow is `decNode`, the differing statements are an `Ops` record, instantiated by `ndOps` and `snOps`.
-/
namespace FastNoise.Deser
open FastNoise.Stream FastNoise.Ser

/-- Effect of a configuring statement: `ub` = vector index out of bounds, `abort` = `return nullptr`. -/
inductive Act (N : Type) where
  | ub
  | abort
  | ok (n : N)
deriving Repr

/-- The statements in which the two decoders differ.  `N` is the node under construction; children are
positions in the list of completed nodes, `none` is a null result. -/
structure Ops (N : Type) where
  /-- 388-393 / 541 -/
  create : (id : Nat) → Option N
  /-- 413 / 562 -/
  setVar : N → Nat → UInt32 → Act N
  /-- 430-433 / 577; the completed nodes are passed because `setFunc` looks at the child's class -/
  setLookup : List N → N → Nat → Option Nat → Act N
  /-- 438-441 / 582: continue after this child that has no slot? -/
  extra : Option Nat → Bool
  /-- 446-449 / (no such loop) -/
  fill : N → Nat → Act N
  /-- 467-470 / 600 -/
  setHybNode : N → Nat → Option Nat → Act N
  /-- 484 / 614 -/
  setHybVal : N → Nat → UInt32 → Act N

/-- Decoder state: stream and completed nodes (`referenceNodes` / `nodeDataOut`). -/
structure DSt (N : Type) where
  rs : RS
  out : List N

/-- Result of a decoder step; `null` = `return nullptr` with the state left behind. -/
inductive Res (N α : Type) where
  | ub
  | nofuel
  | null (s : DSt N)
  | ok (a : α) (s : DSt N)

abbrev M (N α : Type) := DSt N → Res N α

@[simp] def M.pure {N α : Type} (a : α) : M N α := fun s => .ok a s
@[simp] def M.bind {N α β : Type} (x : M N α) (f : α → M N β) : M N β := fun s =>
  match x s with
  | .ub => .ub
  | .nofuel => .nofuel
  | .null s => .null s
  | .ok a s => f a s
instance {N : Type} : Monad (M N) where
  pure := M.pure
  bind := M.bind

/-- `return nullptr` -/
def abort {N α : Type} : M N α := fun s => .null s
/-- undefined behaviour -/
def undef {N α : Type} : M N α := fun _ => .ub

/-- Lift a stream read (Metadata.cpp:310-353). -/
def liftRd {N α : Type} (f : RS → Rd α) : M N α := fun s =>
  match f s.rs with
  | .ub => .ub
  | .fail => .null s
  | .ok a rs => .ok a { s with rs := rs }

def getN {N : Type} (n : Nat) : M N (List UInt8) := liftRd (fun d => d.get n)
def getLk {N : Type} (old : Nat) : M N Lookup := liftRd (fun d => d.getLookup old)

/-- Lift a configuring statement. -/
def act {N α : Type} (a : Act α) : M N α :=
  match a with
  | .ub => undef
  | .abort => abort
  | .ok x => M.pure x

/-- A configuring statement guarded by an index check; skipped when the check fails. -/
def actIf {N : Type} (c : Prop) [Decidable c] (a : Act N) (n : N) : M N N :=
  if c then act a else M.pure n

/-- A recursive call whose null result is not propagated. -/
def tryNull {N : Type} (x : M N Nat) : M N (Option Nat) := fun s =>
  match x s with
  | .ub => .ub
  | .nofuel => .nofuel
  | .null s => .ok none s
  | .ok a s => .ok (some a) s

/-- Metadata.cpp:401-420 / 550-569: variables loop; returns the first lookup that is not a variable. -/
def varLoop {N : Type} (o : Ops N) (nVars : Nat) : Nat → Lookup → N → M N (Lookup × N)
  | 0, _, _ => fun _ => .nofuel
  | fuel + 1, l, n =>
    if l.type = tVariable then do
      let bs ← getN 4
      let n ← actIf (l.index < nVars) (o.setVar n l.index (unle32 bs)) n
      let l ← getLk l.index
      varLoop o nVars fuel l n
    else M.pure (l, n)

/-- Metadata.cpp:425-442 / 574-583: `count` children starting at position `i`. -/
def childLoop {N : Type} (o : Ops N) (nLookups : Nat) (rec : M N Nat) : Nat → Nat → N → M N N
  | 0, _, n => M.pure n
  | count + 1, i, n => do
    let child ← tryNull rec
    if i < nLookups then do
      let n ← (fun s => act (o.setLookup s.out n i child) s)
      childLoop o nLookups rec count (i + 1) n
    else if o.extra child then childLoop o nLookups rec count (i + 1) n
    else abort

/-- Metadata.cpp:443-450: `count` missing children starting at position `i`. -/
def fillLoop {N : Type} (o : Ops N) : Nat → Nat → N → M N N
  | 0, _, n => M.pure n
  | count + 1, i, n => do
    let n ← act (o.fill n i)
    fillLoop o count (i + 1) n

/-- Metadata.cpp:422-456 / 571-589: the optional member nodes part; returns the next lookup. -/
def lookupPart {N : Type} (o : Ops N) (nLookups : Nat) (rec : M N Nat) (r : Lookup × N) :
    M N (Lookup × N) :=
  if r.1.type = tLookup then do
    let n ← childLoop o nLookups rec r.1.index 0 r.2
    let n ← fillLoop o (nLookups - r.1.index) r.1.index n
    let l ← getLk r.1.index
    M.pure (l, n)
  else M.pure r

/-- Metadata.cpp:458-492 / 591-622: hybrids loop until a node end. -/
def hybLoop {N : Type} (o : Ops N) (nHyb : Nat) (rec : M N Nat) : Nat → Lookup → N → M N N
  | 0, _, _ => fun _ => .nofuel
  | fuel + 1, l, n =>
    if l.type = tNodeEnd then M.pure n
    else if l.type = tHybridLookup then do
      let child ← tryNull rec
      let n ← actIf (l.index < nHyb) (o.setHybNode n l.index child) n
      let l ← getLk l.index
      hybLoop o nHyb rec fuel l n
    else if l.type = tHybridVariable then do
      let bs ← getN 4
      let n ← actIf (l.index < nHyb) (o.setHybVal n l.index (unle32 bs)) n
      let l ← getLk l.index
      hybLoop o nHyb rec fuel l n
    else do
      let l ← getLk l.index
      hybLoop o nHyb rec fuel l n

/-- Metadata.cpp:494-496 / 624: append the finished node and return its position. -/
def push {N : Type} (n : N) : M N Nat := fun s => .ok s.out.length { s with out := s.out ++ [n] }

/-- Metadata.cpp:364-378 / 517-531: back reference. -/
def getRef {N : Type} : M N Nat := do
  let bs ← getN 2
  fun s => if unle16 bs ≥ s.out.length then .null s else .ok (unle16 bs) s

/-- Budget of the loops inside one node; more than the remaining bytes plus pending node ends allow. -/
def loopFuel {N : Type} (s : DSt N) : Nat := s.rs.stream.length + 2

/-- Metadata.cpp:355-497 / 508-625.  `fuel` bounds the recursion depth. -/
def decNode {N : Type} (reg : Reg) (o : Ops N) : Nat → M N Nat
  | 0 => fun _ => .nofuel
  | fuel + 1 => do
    let bs ← getN 1
    let id := (bs.headD 0).toNat
    if id = 255 then getRef
    else match reg[id]? with
      | none => abort
      | some m =>
        match o.create id with
        | none => abort
        | some n => do
          let l ← getLk 0
          let r ← (fun s => varLoop o m.vars.length (loopFuel s) l n s)
          let r ← lookupPart o m.lookups.length (decNode reg o fuel) r
          let n ← (fun s => hybLoop o m.hybrids.length (decNode reg o fuel) (loopFuel s) r.1 r.2 s)
          push n

/-! ### NodeData decoder -/

/-- `vector[i] = v` -/
def setAt {α N : Type} (l : List α) (i : Nat) (v : α) (k : List α → N) : Act N :=
  if i < l.length then .ok (k (l.set i v)) else .ub

/-- `NodeData( metadata )`, Metadata.h:317-333: all members at their metadata defaults. -/
def newNodeData (reg : Reg) (id : Nat) : Option NodeData :=
  (reg[id]?).map fun m =>
    { md := some id, vars := m.vars, lookups := m.lookups.map fun _ => none,
      hybrids := m.hybrids.map fun d => (none, d) }

/-- Statements of `DeserialiseNodeDataInternal` (Metadata.cpp:541,562,577,582,600,614). -/
def ndOps (reg : Reg) : Ops NodeData where
  create := newNodeData reg
  setVar n i v := setAt n.vars i v fun l => { n with vars := l }
  setLookup _ n i c := setAt n.lookups i c fun l => { n with lookups := l }
  extra _ := true
  fill n _ := .ok n
  setHybNode n i c :=
    match n.hybrids[i]? with
    | none => .ub
    | some h => .ok { n with hybrids := n.hybrids.set i (c, h.2) }
  setHybVal n i v :=
    match n.hybrids[i]? with
    | none => .ub
    | some h => .ok { n with hybrids := n.hybrids.set i (h.1, v) }

/-! ### Generator decoder -/

/-- A source of a generator: a completed node of the tree, or the dummy `Constant` created for source
slots the text does not mention (Metadata.cpp:446). -/
inductive Src where
  | node (i : Nat)
  | dummy
deriving Repr, DecidableEq

/-- A generator under construction: class (registry id) and the values given to its setters. -/
structure Gen where
  id : Nat
  vars : List UInt32
  lookups : List (Option Src)
  hybrids : List (Option Src × UInt32)
deriving Repr, DecidableEq

/-- Values of the members right after construction of a generator class (C++ member initialisers). -/
structure ClassDefaults where
  vars : List UInt32
  hybrids : List UInt32
deriving Repr, DecidableEq

/-- Statements of `DeserialiseSmartNodeInternal` (Metadata.cpp:388,413,430,438,446,467,484).  `cd` gives
the class defaults by id, `lvl` says whether the requested SIMD level is compiled in (`CreateNode`
returns null otherwise).  `setFunc` of a lookup fails for a null node and for a class the slot's
`dynamic_cast` rejects; the dummy node is a `Constant`, which is not a domain warp.  Hybrid slots accept
every generator. -/
def snOps (reg : Reg) (cd : List ClassDefaults) (lvl : Bool) : Ops Gen where
  create id :=
    if lvl then
      match reg[id]?, cd[id]? with
      | some m, some c =>
        some { id := id, vars := c.vars, lookups := m.lookups.map fun _ => none,
               hybrids := c.hybrids.map fun d => (none, d) }
      | _, _ => none
    else none
  setVar n i v := setAt n.vars i v fun l => { n with vars := l }
  setLookup out n i c :=
    match c with
    | none => .abort
    | some c =>
      match (reg[n.id]?).bind (fun m => m.lookups[i]?), (out[c]?).bind (fun g => reg[g.id]?) with
      | some k, some m =>
        if accepts k m then setAt n.lookups i (some (.node c)) fun l => { n with lookups := l }
        else .abort
      | _, _ => .ub
  extra c := c.isSome
  fill n i :=
    match (reg[n.id]?).bind (fun m => m.lookups[i]?) with
    | some .any => setAt n.lookups i (some .dummy) fun l => { n with lookups := l }
    | some .warp => .abort
    | none => .ub
  setHybNode n i c :=
    match c with
    | none => .abort
    | some c =>
      match n.hybrids[i]? with
      | none => .ub
      | some h => .ok { n with hybrids := n.hybrids.set i (some (.node c), h.2) }
  setHybVal n i v :=
    match n.hybrids[i]? with
    | none => .ub
    | some _ => .ok { n with hybrids := n.hybrids.set i (none, v) }

/-- Initial decoder state for a byte vector. -/
def start {N : Type} (bytes : List UInt8) : DSt N :=
  { rs := { stream := bytes, pos := 0, stack := 0 }, out := [] }

/-- Outcome of a public deserialise function: null, or the root and all completed nodes. -/
inductive DecOut (N : Type) where
  | ub
  | nonterm
  | null
  | tree (root : Nat) (nodes : List N)
deriving Repr, DecidableEq

def run {N : Type} (x : M N Nat) (bytes : List UInt8) : DecOut N :=
  match x (start bytes) with
  | .ub => .ub
  | .nofuel => .nonterm
  | .null _ => .null
  | .ok r s => .tree r s.out

/-- Decode a byte vector as node data; recursion deeper than the number of bytes is impossible. -/
def decodeND (reg : Reg) (bytes : List UInt8) : DecOut NodeData :=
  run (decNode reg (ndOps reg) (bytes.length + 1)) bytes

/-- Decode a byte vector as a generator. -/
def decodeSN (reg : Reg) (cd : List ClassDefaults) (lvl : Bool) (bytes : List UInt8) : DecOut Gen :=
  run (decNode reg (snOps reg cd lvl) (bytes.length + 1)) bytes

/-- Metadata.cpp:627-632 `DeserialiseNodeData` with an initially empty `nodeDataOut`. -/
def deserialiseNodeData (reg : Reg) (text : List UInt8) : DecOut NodeData :=
  match Base64.decode text with
  | .ub => .ub
  | .done bytes => decodeND reg bytes

/-- Metadata.cpp:499-506 `NewFromEncodedNodeTree`. -/
def newFromEncodedNodeTree (reg : Reg) (cd : List ClassDefaults) (lvl : Bool) (text : List UInt8) :
    DecOut Gen :=
  match Base64.decode text with
  | .ub => .ub
  | .done bytes => decodeSN reg cd lvl bytes

end FastNoise.Deser
