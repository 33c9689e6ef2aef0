import Verif.Editor
/-!
# The node editor's settings file

Model of how the editor keeps its graph between two runs: the ImGui settings handlers of `FastNoiseNodeEditor` (tools/NodeEditor/FastNoiseNodeEditor.cpp:330-542) write the nodes as
text sections when the program ends, and rebuild them from the text when it starts.

ImGui itself (a dependency) is not modelled: it stores the bytes `WriteAllFn` produces, and on loading cuts them into sections `[type][name]` and lines, calling `ReadOpenFn` once per section
and `ReadLineFn` once per line, in order, then `ApplyAllFn`.  `printf`/`sscanf` are those of the C library for the conversions used: `%d`/`%i` and `%f` (correctly rounded; `sscanf`
also skips white space, and reads exponents and hexadecimal numbers, which nothing here writes: not modelled).
-/
namespace FastNoise.Editor
open FastNoise.Ser FastNoise.Deser

/-! ## Numbers as text -/

/-- One decimal digit. -/
def digit (n : Nat) : Char := Char.ofNat (48 + n)

/-- The decimal digits of a number, without leading zeros; `fuel` bounds their count. -/
def digits : Nat → Nat → List Char
  | 0, _ => []
  | f + 1, n => if n < 10 then [digit n] else digits f (n / 10) ++ [digit (n % 10)]

/-- `%u` -/
def dec (n : Nat) : List Char := digits (n.log2 + 1) n

/-- `printf( "%d" )` (also `%i`) of the `int` with this bit pattern. -/
def printD (v : UInt32) : List Char := if v.toNat < 2 ^ 31 then dec v.toNat else '-' :: dec (2 ^ 32 - v.toNat)

/-- Is it a decimal digit? -/
def isDig (c : Char) : Bool := 48 ≤ c.toNat && c.toNat ≤ 57

/-- The value of leading digits, and what follows them. -/
def scanDigits : Nat → List Char → Nat × List Char
  | acc, [] => (acc, [])
  | acc, c :: cs => if isDig c then scanDigits (10 * acc + (c.toNat - 48)) cs else (acc, c :: cs)

/-- A number of at least one digit. -/
def scanU (cs : List Char) : Option (Nat × List Char) :=
  match cs with
  | [] => none
  | c :: cs => if isDig c then some (scanDigits 0 (c :: cs)) else none

/-- An optional sign. -/
def scanSign : List Char → Bool × List Char
  | '-' :: cs => (true, cs)
  | '+' :: cs => (false, cs)
  | cs => (false, cs)

/-- `sscanf( "%d" )`, as a bit pattern; numbers that do not fit wrap around (glibc). -/
def scanD (cs : List Char) : Option (UInt32 × List Char) :=
  let (neg, cs) := scanSign cs
  (scanU cs).map fun r => (if neg then UInt32.ofNat (2 ^ 32 - r.1 % 2 ^ 32) else UInt32.ofNat r.1, r.2)

/-- `a / b` rounded to nearest, ties to even. -/
def roundDiv (a b : Nat) : Nat :=
  let q := a / b
  let r := a % b
  if 2 * r < b then q else if b < 2 * r then q + 1 else q + q % 2

/-- The magnitude of the finite float with bit pattern `b` (sign cleared), in units of 2^-149. -/
def floatUnits (b : Nat) : Nat := if b / 2 ^ 23 = 0 then b else (b % 2 ^ 23 + 2 ^ 23) * 2 ^ (b / 2 ^ 23 - 1)

/-- Bits of the float nearest to `num / den` (ties to even, infinity on overflow): `strtof`. -/
def nearestFloat (num den : Nat) : Nat :=
  let x := num * 2 ^ 149
  let s := (x / den).log2 - 23
  min (s * 2 ^ 23 + roundDiv x (den * 2 ^ s)) 0x7f800000

/-- Six digits behind the point. -/
def six (n : Nat) : List Char := [digit (n / 100000 % 10), digit (n / 10000 % 10), digit (n / 1000 % 10), digit (n / 100 % 10), digit (n / 10 % 10), digit (n % 10)]

/-- `printf( "%f" )` of the float with this bit pattern (a `float` argument is promoted to the `double` of the same value). -/
def printF (v : UInt32) : List Char :=
  let b := v.toNat % 2 ^ 31
  (if v.toNat < 2 ^ 31 then [] else ['-']) ++
    if b < 0x7f800000 then
      let n := roundDiv (floatUnits b * 10 ^ 6) (2 ^ 149)
      dec (n / 10 ^ 6) ++ '.' :: six (n % 10 ^ 6)
    else if b = 0x7f800000 then "inf".toList else "nan".toList

/-- Digits, a point, digits: the number without the point, and how many digits follow it. -/
def scanPoint (cs : List Char) : Option ((Nat × Nat) × List Char) :=
  match scanU cs with
  | none => none
  | some (n, '.' :: rest) => let r := scanDigits n rest; some ((r.1, rest.length - r.2.length), r.2)
  | some (n, rest) => some ((n, 0), rest)

/-- A literal part of a `sscanf` format. -/
def lit : List Char → List Char → Option (List Char)
  | [], cs => some cs
  | _ :: _, [] => none
  | a :: as, c :: cs => if a = c then lit as cs else none

/-- `sscanf( "%f" )` -/
def scanF (cs : List Char) : Option (UInt32 × List Char) :=
  let (neg, cs) := scanSign cs
  let sgn := fun b : Nat => UInt32.ofNat (if neg then 2 ^ 31 + b else b)
  match lit "inf".toList cs with
  | some rest => some (sgn 0x7f800000, rest)
  | none =>
    match lit "nan".toList cs with
    | some rest => some (sgn 0x7fc00000, rest)
    | none => (scanPoint cs).map fun r => (sgn (nearestFloat r.1.1 (10 ^ r.1.2)), r.2)

/-! ## Writing -/

/-- A section of the file: `[type][name]` and the lines below. -/
structure Section where
  type : List Char
  name : List Char
  lines : List (List Char)
deriving Repr, DecidableEq

/-- `nodeSettings.TypeName`: FastNoiseNodeEditor.cpp:374 -/
def nodeType : List Char := "NodeEditorNodeData".toList
/-- `editorSettings.TypeName`: FastNoiseNodeEditor.cpp:473 -/
def graphType : List Char := "NodeEditorNodeGraph".toList

/-- Where ImNodes keeps a node on the grid, by node id. -/
abbrev Grid := Nat → UInt32 × UInt32

/-- `mNodes.at( p ).nodeId` or 0 for a null pointer (FastNoiseNodeEditor.cpp:355, 359); `none` = `std::out_of_range`. -/
def idOrZero (nodes : List (Nat × Nat)) : Option Nat → Option Nat
  | none => some 0
  | some p => (nodes.find? fun n => n.1 = p).map (·.2)

/-- The lines `node=%d`: FastNoiseNodeEditor.cpp:353-356 -/
def nodeLines (nodes : List (Nat × Nat)) (ls : List (Option Nat)) : Option (List (List Char)) :=
  ls.mapM fun l => (idOrZero nodes l).map fun id => "node=".toList ++ printD (UInt32.ofNat id)

/-- The lines `hybrid=%i:%f`: FastNoiseNodeEditor.cpp:357-360 -/
def hybridLines (nodes : List (Nat × Nat)) (hs : List (Option Nat × UInt32)) : Option (List (List Char)) :=
  hs.mapM fun h => (idOrZero nodes h.1).map fun id => "hybrid=".toList ++ printD (UInt32.ofNat id) ++ ':' :: printF h.2

/-- The section of one node: FastNoiseNodeEditor.cpp:346-367. `none`: a null metadata pointer is dereferenced, or a link leads outside `mNodes`. -/
def nodeSection (nodes : List (Nat × Nat)) (grid : Grid) (nd : NodeData) (id : Nat) : Option Section := do
  let md ← nd.md
  let ls ← nodeLines nodes nd.lookups
  let hs ← hybridLines nodes nd.hybrids
  pure { type := nodeType
         name := "Node:".toList ++ printD (UInt32.ofNat md)
         lines := nd.vars.map (fun v => "variable=".toList ++ printD v) ++ ls ++ hs ++
           ["id=".toList ++ printD (UInt32.ofNat id), "grid_pos=".toList ++ printF (grid id).1 ++ ':' :: printF (grid id).2] }

/-- A loop that threads a state. -/
def eachDo {α σ : Type} (f : α → σ → Out σ) : List α → σ → Out σ
  | [], s => .ok s
  | x :: xs, s => (f x s).bind (eachDo f xs)

/-- The text so far and `serialisedNodeIds`. -/
abbrev WSt := List Section × List Nat

/-- `if( nodeData )`: FastNoiseNodeEditor.cpp:339 -/
def ifLink (f : Nat → WSt → Out WSt) (l : Option Nat) (w : WSt) : Out WSt :=
  match l with
  | some c => f c w
  | none => .ok w

/-- `SerialiseIncludingDependancies`: FastNoiseNodeEditor.cpp:330-369.  `ub` also stands for the uncaught exception of `mNodes.at`. -/
def writeNode (st : Ed) (grid : Grid) : Nat → Nat → WSt → Out WSt
  | 0, _, _ => .deep
  | fuel + 1, p, w =>
    match (st.nodes.find? fun n => n.1 = p), st.arena[p]? with
    | some n, some nd =>
      if n.2 ∈ w.2 then .ok w
      else
        (eachDo (ifLink (writeNode st grid fuel)) (links nd) w).bind fun w =>
            match nodeSection st.nodes grid nd n.2 with
            | some s => .ok (w.1 ++ [s], n.2 :: w.2)
            | none => .ub
    | _, _ => .ub

/-- No node links to `p`: FastNoiseNodeEditor.cpp:386-397 -/
def isRoot (st : Ed) (p : Nat) : Bool := st.nodes.all fun n => match st.arena[n.1]? with
  | some nd => decide (some p ∉ links nd)
  | none => true

/-- `nodeSettings.WriteAllFn`: FastNoiseNodeEditor.cpp:377-404.  `ρ` is the iteration order of `mNodes`. -/
def writeNodes (ρ : List (Nat × Nat) → List (Nat × Nat)) (fuel : Nat) (st : Ed) (grid : Grid) : Out WSt :=
  eachDo (fun n w => if isRoot st n.1 then writeNode st grid fuel n.1 w else .ok w) (ρ st.nodes) ([], [])

/-- The other settings the editor keeps (FastNoiseNodeEditor.h: `mNodeScale`, `mNodeSeed`, `mNodeGenType`, `mSelectedNode`; the panning of the grid). -/
structure Prefs where
  offset : UInt32 × UInt32
  scale : UInt32
  seed : UInt32
  genType : UInt32
  selected : Option Nat
deriving Repr, DecidableEq

/-- `editorSettings.WriteAllFn`: FastNoiseNodeEditor.cpp:476-494 -/
def writePrefs (nodes : List (Nat × Nat)) (pr : Prefs) : Section :=
  { type := graphType
    name := "Settings".toList
    lines := ["grid_offset=".toList ++ printF pr.offset.1 ++ ':' :: printF pr.offset.2, "scale=".toList ++ printF pr.scale, "seed=".toList ++ printD pr.seed,
        "gen_type=".toList ++ printD pr.genType] ++
      match pr.selected.bind fun p => nodes.find? fun n => n.1 = p with
      | some n => ["selected_node=".toList ++ printD (UInt32.ofNat n.2)]
      | none => [] }

/-- What `SaveIniSettingsToDisk` stores: one handler after the other (540-541). -/
def save (ρ : List (Nat × Nat) → List (Nat × Nat)) (fuel : Nat) (st : Ed) (grid : Grid) (pr : Prefs) : Out (List Section) :=
  (writeNodes ρ fuel st grid).bind fun w => .ok (w.1 ++ [writePrefs st.nodes pr])

/-! ## Reading -/

/-- The editor while the file is read: the graph, the positions set so far (newest first) and the other settings. -/
structure Ld where
  ed : Ed
  grid : List (Nat × (UInt32 × UInt32))
  prefs : Prefs
deriving Repr, DecidableEq

/-- The `void* entry` of a section: a `NodeData` not yet in the graph, one the graph owns (with its node id), one that was deleted, the editor itself, or null. -/
inductive Entry where
  | none
  | pending (nd : NodeData)
  | owned (p id : Nat)
  | freed
  | graph
deriving Repr, DecidableEq

/-- `ReadOpenFn` of the two handlers: FastNoiseNodeEditor.cpp:405-421, 495-503.  `GetFromId` takes a `uint8_t` (Metadata.h:175, 194-204). -/
def readOpen (reg : Reg) (s : Section) : Entry :=
  if s.type = nodeType then
    match (lit "Node:".toList s.name).bind scanD with
    | some (v, _) => if v.toNat % 256 < reg.length then .pending { md := some (v.toNat % 256), vars := [], lookups := [], hybrids := [] } else .none
    | none => .none
  else if s.type = graphType then (if s.name = "Settings".toList then .graph else .none)
  else .none

/-- `sscanf( line, "<key>=%f:%f" ) == 2` -/
def scan2F (key line : List Char) : Option (UInt32 × UInt32) := do
  let (x, r) ← (lit key line).bind scanF
  let r ← lit [':'] r
  let (y, _) ← scanF r
  pure (x, y)

/-- `sscanf( line, "<key>=%d" ) == 1` -/
def scan1D (key line : List Char) : Option UInt32 := ((lit key line).bind scanD).map (·.1)
/-- `sscanf( line, "<key>=%f" ) == 1` -/
def scan1F (key line : List Char) : Option UInt32 := ((lit key line).bind scanF).map (·.1)

/-- `sscanf( line, "<key>=%d:%f" ) == 2` -/
def scanDF (key line : List Char) : Option (UInt32 × UInt32) := do
  let (x, r) ← (lit key line).bind scanD
  let r ← lit [':'] r
  let (y, _) ← scanF r
  pure (x, y)

/-- Put a finished `NodeData` into the graph under the id of the file: `try_emplace` and the node constructor, FastNoiseNodeEditor.cpp:116-131, 460.  Id 0 asks for a free one. -/
def emplaceNode (reg : Reg) (ρ : List (Nat × Nat) → List (Nat × Nat)) (fuel : Nat) (ed : Ed) (nd : NodeData) (id : Nat) : Out Ed :=
  let ed := { ed with arena := ed.arena ++ [nd] }
  if id = 0 then addData reg ρ fuel ed (ed.arena.length - 1)
  else (preview reg ((ρ ed.nodes).map (·.1)) fuel (ed.arena.length - 1) ed.arena).bind fun A => .ok { ed with arena := A, nodes := (ed.arena.length - 1, id) :: ed.nodes }

/-- `nodeSettings.ReadLineFn`: FastNoiseNodeEditor.cpp:422-469.  Growing a node the graph already owns is kept out of the model (`ub`): no file the editor writes does it. -/
def readNodeLine (reg : Reg) (ρ : List (Nat × Nat) → List (Nat × Nat)) (fuel : Nat) (ld : Ld) (e : Entry) (line : List Char) : Out (Ld × Entry) :=
  match scan2F "grid_pos=".toList line with
  | some v =>
    match e with
    | .owned _ id => .ok ({ ld with grid := (id, v) :: ld.grid }, e)
    | _ => .ok (ld, e)
  | none =>
  match scan1D "variable=".toList line with
  | some v =>
    match e with
    | .pending nd => .ok (ld, .pending { nd with vars := nd.vars ++ [v] })
    | _ => .ub
  | none =>
  match scan1D "node=".toList line with
  | some v =>
    match e with
    | .pending nd => .ok (ld, .pending { nd with lookups := nd.lookups ++ [findNode ld.ed.nodes v.toNat] })
    | _ => .ub
  | none =>
  match scanDF "hybrid=".toList line with
  | some v =>
    match e with
    | .pending nd => .ok (ld, .pending { nd with hybrids := nd.hybrids ++ [(findNode ld.ed.nodes v.1.toNat, v.2)] })
    | _ => .ub
  | none =>
  match scan1D "id=".toList line with
  | some v =>
    match e with
    | .pending nd =>
      match nd.md.bind fun md => reg[md]? with
      | none => .ub
      | some m =>
        if nd.vars.length = m.vars.length ∧ nd.lookups.length = m.lookups.length ∧ nd.hybrids.length = m.hybrids.length ∧ findNode ld.ed.nodes v.toNat = none then
          (emplaceNode reg ρ fuel ld.ed nd v.toNat).bind fun ed => .ok ({ ld with ed := ed }, .owned ld.ed.arena.length ((ed.nodes.head?.map (·.2)).getD 0))
        else .ok (ld, .freed)
    | _ => .ub
  | none => .ok (ld, e)

/-- `editorSettings.ReadLineFn`: FastNoiseNodeEditor.cpp:504-529.  `detached` = `IsDetachedNodeGraph()`. -/
def readPrefsLine (detached : Bool) (ld : Ld) (line : List Char) : Ld :=
  let pr := ld.prefs
  let pr := match scan2F "grid_offset=".toList line with
    | some v => { pr with offset := v }
    | none => pr
  let pr := match scan1F "scale=".toList line with
    | some v => { pr with scale := v }
    | none => pr
  let pr := match scan1D "seed=".toList line with
    | some v => { pr with seed := v }
    | none => pr
  let pr := match scan1D "gen_type=".toList line with
    | some v => { pr with genType := v }
    | none => pr
  let pr := if detached then
      match scan1D "selected_node=".toList line with
      | some v => match findNode ld.ed.nodes v.toNat with
        | some p => { pr with selected := some p }
        | none => pr
      | none => pr
    else pr
  { ld with prefs := pr }

/-- One line of a section. -/
def readLine (reg : Reg) (ρ : List (Nat × Nat) → List (Nat × Nat)) (fuel : Nat) (detached : Bool) (line : List Char) (s : Ld × Entry) : Out (Ld × Entry) :=
  match s.2 with
  | .none => .ok s
  | .graph => .ok (readPrefsLine detached s.1 line, s.2)
  | e => readNodeLine reg ρ fuel s.1 e line

/-- One section. -/
def readSection (reg : Reg) (ρ : List (Nat × Nat) → List (Nat × Nat)) (fuel : Nat) (detached : Bool) (s : Section) (ld : Ld) : Out Ld :=
  (eachDo (readLine reg ρ fuel detached) s.lines (ld, readOpen reg s)).bind fun r => .ok r.1

/-- `ApplyAllFn`: FastNoiseNodeEditor.cpp:530-537 -/
def applyAll (reg : Reg) (ρ : List (Nat × Nat) → List (Nat × Nat)) (fuel : Nat) (ed : Ed) : Out Ed :=
  (eachDo (fun n A => preview reg ((ρ ed.nodes).map (·.1)) fuel n.1 A) (ρ ed.nodes) ed.arena).bind fun A => .ok { ed with arena := A }

/-- `LoadIniSettingsFromDisk` at the first frame (FastNoiseNodeEditor.cpp:855-863), into the editor as constructed. -/
def load (reg : Reg) (ρ : List (Nat × Nat) → List (Nat × Nat)) (fuel : Nat) (detached : Bool) (pr : Prefs) (file : List Section) : Out Ld :=
  (eachDo (readSection reg ρ fuel detached) file { ed := init, grid := [], prefs := pr }).bind fun ld =>
    (applyAll reg ρ fuel ld.ed).bind fun ed => .ok { ld with ed := ed }

end FastNoise.Editor
