import Verif.Registry
import Verif.Names
/-!
# The menus of the node editor that offer node types

Model of the context menu tree of tools/NodeEditor/FastNoiseNodeEditor.cpp (built 572-605, drawn 276-328, used 1137-1143, 1406-1409, 1476-1479).

A `MetadataMenuGroup*` is represented by the text under which the group was put into `groupMap` (`none`: the root): every group but the root is put there once, when it is made (591-594).
`M` is the type of metadata pointers.  `std::sort` may order equal names as it likes: a parameter `sort`.  ImGui is represented by what is drawn when every submenu is open.
-/
namespace FastNoise.EditorMenu
open FastNoise.Names (Str)

/-- `std::vector<const MetadataMenu*>` elements: a submenu with its name, or a node type.  FastNoiseNodeEditor.h:83-103. -/
inductive Entry (M : Type) where
  | sub (key : Str) (name : Str)
  | node (m : M)

/-- A `MetadataMenuGroup`: FastNoiseNodeEditor.h:94-104. -/
structure Group (M : Type) where
  name : Str
  items : List (Entry M)

/-- The groups that exist, by key; also the content of `groupMap`. -/
abbrev Heap (M : Type) := Option Str → Option (Group M)

variable {M : Type}

/-- Writing through the pointer `k`. -/
def Heap.set (H : Heap M) (k : Option Str) (g : Group M) : Heap M := fun j => if j = k then some g else H j

/-- `items.emplace_back( e ); std::sort( items.begin(), items.end(), menuSort )`: lines 593, 596, 603-604. -/
def addItem (sort : List (Entry M) → List (Entry M)) (H : Heap M) (k : Option Str) (e : Entry M) : Heap M :=
  match H k with
  | none => H
  | some g => H.set k { g with items := sort (g.items ++ [e]) }

/-- One iteration of the loop over the groups of a node: lines 585-601.  The state is the heap, `metaDataGroup` and `groupTree`. -/
def descend (sort : List (Entry M) → List (Entry M)) (s : Heap M × Option Str × Str) (group : Str) : Heap M × Option Str × Str :=
  let (H, cur, tree) := s
  let tree := tree ++ group
  let H := match H (some tree) with
    | some _ => H
    | none => addItem sort (H.set (some tree) ⟨group, []⟩) cur (.sub tree group)
  (H, some tree, tree ++ ['\t'])

/-- One iteration of the loop over all metadata: lines 579-605. -/
def addNode (sort : List (Entry M) → List (Entry M)) (groups : M → List Str) (H : Heap M) (m : M) : Heap M :=
  let (H, cur, _) := (groups m).foldl (descend sort) (H, none, [])
  addItem sort H cur (.node m)

/-- The root, alone: lines 574-575. -/
def empty : Heap M := fun k => if k = none then some ⟨[], []⟩ else none

/-- The context menu tree: lines 573-605. -/
def menu (sort : List (Entry M) → List (Entry M)) (groups : M → List Str) (all : List M) : Heap M := all.foldl (addNode sort groups) empty

/-- `CanDraw`: FastNoiseNodeEditor.cpp:276-279, 292-302.  `depth` bounds the nesting of the calls. -/
def canDraw (H : Heap M) (valid : M → Bool) : Nat → Entry M → Bool
  | _, .node m => valid m
  | 0, .sub _ _ => false
  | depth + 1, .sub k _ =>
    match H (some k) with
    | none => false
    | some g => g.items.any (canDraw H valid depth)

/-- What `MetadataMenuGroup::DrawUI` draws, all submenus open: FastNoiseNodeEditor.cpp:304-328; each node type with the submenus it is in.  `depth` bounds the nesting. -/
def draw (H : Heap M) (valid : M → Bool) (drawGroups : Bool) : Nat → Option Str → List (List Str × M)
  | 0, _ => []
  | depth + 1, k =>
    match H k with
    | none => []
    | some g =>
      (g.items.filter (canDraw H valid depth)).flatMap fun
        | .node m => [([], m)]
        | .sub k name =>
          let doGroup := drawGroups && !name.isEmpty
          (draw H valid drawGroups depth (some k)).map fun (p, m) => (if doGroup then name :: p else p, m)

/-- `GetName`: FastNoiseNodeEditor.h:87, 98. -/
def Entry.name (nodeName : M → Str) : Entry M → Str
  | .sub _ n => n
  | .node m => nodeName m

/-- `std::strcmp( a, b ) < 0`, for texts of characters below 128. -/
def strLt : Str → Str → Bool
  | _, [] => false
  | [], _ :: _ => true
  | a :: as, b :: bs => if a.toNat < b.toNat then true else if b.toNat < a.toNat then false else strLt as bs

/-- `MatchingGroup`: FastNoiseNodeEditor.cpp:42-48 -/
def matchingGroup (a b : List Str) : Bool := a = b

/-- The test of the "Convert To" menu: FastNoiseNodeEditor.cpp:1138-1143. -/
def convertValid [DecidableEq M] (groups : M → List Str) (node m : M) : Bool := m ≠ node && matchingGroup (groups m) (groups node)

/-- The test of the menu of a dropped link: FastNoiseNodeEditor.cpp:1476-1479. -/
def dropValid (lookups hybrids : M → Nat) (m : M) : Bool := lookups m ≠ 0 || hybrids m ≠ 0

end FastNoise.EditorMenu
