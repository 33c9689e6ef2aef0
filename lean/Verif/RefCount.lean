import Mathlib.Algebra.BigOperators.Fin
import Mathlib.Algebra.BigOperators.Group.Finset.Basic

/-!
# Reference counted node handles (`SmartNode`)

A labelled transition system of `T` threads running programs of `SmartNode` operations over `N` pointer variables
(local/global variables and the source members inside nodes).  Every step contains exactly one access to shared atomic state
(a `fetch_add` / `fetch_sub` on a reference count, or the `Free` call); accesses to a thread's private, non-atomic pointer
variables are performed together with the neighbouring atomic access.  `N` and `T` are arbitrary.

* Memory model: sequentially consistent interleavings (the code uses relaxed atomics; not modelled).
* Objects get a fresh identity per construction; re-use of an address after `Free` is the business of `Pool.lean`.
* Touching an object which is not alive, or a variable which no longer exists, is the outcome `none` ("undefined behaviour").
-/

namespace FastNoise.RefCount

abbrev Obj := Nat

/-- Where a pointer variable lives: nowhere (not constructed), in a thread (local variable, or a global managed by it), or as a
source member of a node (Generator.h:113-133 `BaseSource::base`). -/
inductive Owner (T : Nat) where
  | dead
  | thr (t : Fin T)
  | mem (o : Obj)
  deriving DecidableEq

/-- Life of a node object: not yet constructed, constructed, inside its destructor, memory handed back. -/
inductive Life where
  | unborn | live | dying | freed
  deriving DecidableEq

/-- What is left to do of the operation a thread is executing.
* `relAssign d s g pin`: copy assignment `d = s` (SmartNode.h:157-180) after `TryInc( node.mPtr )`; `g` is the pointer that
  was counted, `pin` the handle through which a member `d` is reached.
* `finAssign d s g pin`: the same after `Release()`, before `mPtr = node.mPtr`.
* `finTake d s`: move assignment from another pointer type (SmartNode.h:143-155) after `Release()`.
* `finEnd d`: end of the lifetime of `d` after `Release()` (SmartNode.h:129-132). -/
inductive Todo (N : Nat) where
  | idle
  | relAssign (d s : Fin N) (g : Option Obj) (pin : Option (Fin N))
  | finAssign (d s : Fin N) (g : Option Obj) (pin : Option (Fin N))
  | finTake (d s : Fin N)
  | finEnd (d : Fin N)
  deriving DecidableEq

/-- A thread: the destructors it is inside of, innermost first, each with the members still to be destroyed, and the
operation underneath. -/
structure Thr (N : Nat) where
  destr : List (Obj × List (Fin N)) := []
  todo : Todo N := .idle
  deriving DecidableEq

/-- The program state.  `cnt` is `mReferences` (Generator.inl:522, `std::atomic<uint32_t>`), `members o` the source members of
`o` in the order in which its destructor destroys them. -/
structure St (N T : Nat) where
  ptr : Fin N → Option Obj
  owner : Fin N → Owner T
  cnt : Obj → Nat
  life : Obj → Life
  members : Obj → List (Fin N)
  thr : Fin T → Thr N

variable {N T : Nat}

/-- Program start: no variables, no nodes, all threads idle. -/
def St.init : St N T := ⟨fun _ => none, fun _ => .dead, fun _ => 0, fun _ => .unborn, fun _ => [], fun _ => {}⟩

def St.setPtr (s : St N T) (d : Fin N) (p : Option Obj) : St N T := { s with ptr := Function.update s.ptr d p }
def St.setOwner (s : St N T) (d : Fin N) (w : Owner T) : St N T := { s with owner := Function.update s.owner d w }
def St.setTodo (s : St N T) (t : Fin T) (x : Todo N) : St N T :=
  { s with thr := Function.update s.thr t { s.thr t with todo := x } }
def St.setDestr (s : St N T) (t : Fin T) (x : List (Obj × List (Fin N))) : St N T :=
  { s with thr := Function.update s.thr t { s.thr t with destr := x } }

/-- SmartNode.h:305-313 `TryInc` with Generator.inl:512-520 `ReferencesFetchAdd( 1 )` (unsigned 32 bit wrap). -/
def tryInc (s : St N T) : Option Obj → Option (St N T)
  | none => some s
  | some o => if s.life o = .live then some { s with cnt := Function.update s.cnt o ((s.cnt o + 1) % 2 ^ 32) } else none

/-- SmartNode.h:285-303 `Release`: `ReferencesFetchAdd( -1 )`; if the previous count was 1 enter the destructor.  The final
`mPtr = nullptr` on the private variable `d` is performed at once rather than after the destructor: nothing in between reads it. -/
def release (s : St N T) (t : Fin T) (d : Fin N) : Option (St N T) :=
  if s.owner d = .dead then none else
  match s.ptr d with
  | none => some s
  | some o =>
    if s.life o = .live then
      let prev := s.cnt o
      let s1 := { s with cnt := Function.update s.cnt o ((prev + (2 ^ 32 - 1)) % 2 ^ 32), ptr := Function.update s.ptr d none }
      if prev = 1 then
        some { s1 with
          life := Function.update s.life o .dying
          thr := Function.update s.thr t { s.thr t with destr := (o, s.members o) :: (s.thr t).destr } }
      else some s1
    else none

/-- SmartNode.h:299 `SmartNodeManager::Free( mPtr )`: the memory of `o`, and with it its members, is gone. -/
def freeObj (s : St N T) (t : Fin T) (o : Obj) (rest : List (Obj × List (Fin N))) : St N T :=
  { s with
    life := Function.update s.life o .freed
    owner := fun d => if s.owner d = .mem o then .dead else s.owner d
    thr := Function.update s.thr t { s.thr t with destr := rest } }

/-- One step of the operation a thread is inside of.  Inside destructors: destroy the next member (`~SmartNode` calls `Release`,
SmartNode.h:129-132), or, when none is left, `SmartNodeManager::Free( mPtr )` (SmartNode.h:299): the object and the storage
of its members are gone.  Otherwise continue the operation underneath. -/
def run (s : St N T) (t : Fin T) : Option (St N T) :=
  match (s.thr t).destr with
  | (o, []) :: rest =>
    if s.life o = .dying then
      some (freeObj s t o rest)
    else none
  | (o, m :: ms) :: rest => release (s.setDestr t ((o, ms) :: rest)) t m
  | [] =>
    match (s.thr t).todo with
    | .idle => some s
    | .relAssign d x g pin => release (s.setTodo t (.finAssign d x g pin)) t d
    | .finAssign d x _ _ =>
      if s.owner x = .dead ∨ s.owner d = .dead then none
      else some ((s.setPtr d (s.ptr x)).setTodo t .idle)
    | .finTake d x =>
      if s.owner x = .dead ∨ s.owner d = .dead then none
      else some (((s.setPtr d (s.ptr x)).setPtr x none).setTodo t .idle)
    | .finEnd d => some ((s.setOwner d .dead).setTodo t .idle)

/-- The operations of the handle API. -/
inductive Act (N T : Nat) where
  | declare (d : Fin N)                                   -- `SmartNode<> d;`
  | new (d : Fin N) (o : Obj) (ms : List (Fin N))         -- `SmartNode<> d = New<...>();` a node with source members `ms`
  | copyCtor (d s : Fin N) (pin : Option (Fin N))         -- `SmartNode<> d( s );` (`pin`: `s` is a member of the node `pin` points to)
  | moveCtor (d s : Fin N)                                -- `SmartNode<> d( std::move( s ) );`
  | copyAssign (d s : Fin N) (pin : Option (Fin N))       -- `d = s;` / `pin->SetSource( s );` where `d` is the member
  | swapAssign (d s : Fin N)                              -- `d = std::move( s );` / `d.swap( s )`
  | takeAssign (d s : Fin N)                              -- `d = std::move( s );` with another pointer type
  | destroy (d : Fin N)                                   -- end of scope
  | use (h : Fin N)                                       -- `h->...`
  | give (d : Fin N) (u : Fin T)                          -- the variable is from now on managed by thread `u`
  | run                                                   -- the thread goes on with its current operation

/-- Start of an operation (up to and including its first access to an atomic), or `run`.
SmartNode.h:94-95 default constructor; 97-116 copy constructors; 118-128 move constructors; 137-141 move assignment (swap);
143-155 templated move assignment; 157-180 copy assignments; 129-132 destructor; 192-214 dereference; FastNoise.h:37-43 `New`
with SmartNode.h:279-283 (`mReferences = 0`, then `TryInc`).  `reset( p )` (231-234) is a temporary, a swap and the destruction
of the temporary.  `SetSource` (Generator.h:432-441) copy-assigns the member. -/
def exec (s : St N T) (t : Fin T) : Act N T → Option (St N T)
  | .declare d => some (s.setOwner d (.thr t))
  | .new d o ms =>
    some { s with
      life := Function.update s.life o .live
      cnt := Function.update s.cnt o ((0 + 1) % 2 ^ 32)
      members := Function.update s.members o ms
      owner := fun x => if x = d then .thr t else if x ∈ ms then .mem o else s.owner x
      ptr := fun x => if x = d then some o else if x ∈ ms then none else s.ptr x }
  | .copyCtor d x _ =>
    if s.owner x = .dead then none else tryInc ((s.setOwner d (.thr t)).setPtr d (s.ptr x)) (s.ptr x)
  | .moveCtor d x =>
    if s.owner x = .dead then none else some (((s.setOwner d (.thr t)).setPtr d (s.ptr x)).setPtr x none)
  | .copyAssign d x pin =>
    if s.owner x = .dead ∨ s.owner d = .dead then none
    else if s.ptr d = s.ptr x then some s
    else tryInc (s.setTodo t (.relAssign d x (s.ptr x) pin)) (s.ptr x)
  | .swapAssign d x =>
    if s.owner x = .dead ∨ s.owner d = .dead then none
    else some ((s.setPtr d (s.ptr x)).setPtr x (s.ptr d))
  | .takeAssign d x =>
    if s.owner x = .dead ∨ s.owner d = .dead then none
    else if s.ptr d = s.ptr x then some s
    else release (s.setTodo t (.finTake d x)) t d
  | .destroy d => release (s.setTodo t (.finEnd d)) t d
  | .use h =>
    if s.owner h = .dead then none else
    match s.ptr h with
    | none => none
    | some o => if s.life o = .live then some s else none
  | .give d u => some (s.setOwner d (.thr u))
  | .run => run s t

/-! ### What a correct client may do -/

/-- Variables an unfinished operation is going to write. -/
def Todo.writes : Todo N → List (Fin N)
  | .idle => []
  | .relAssign d _ _ _ => [d]
  | .finAssign d _ _ _ => [d]
  | .finTake d s => [d, s]
  | .finEnd d => [d]

/-- Variables an unfinished operation is going to read or write, or relies on. -/
def Todo.mentions : Todo N → List (Fin N)
  | .idle => []
  | .relAssign d s _ pin => d :: s :: pin.toList
  | .finAssign d s _ pin => d :: s :: pin.toList
  | .finTake d s => [d, s]
  | .finEnd d => [d]

def St.idle (s : St N T) (t : Fin T) : Prop := (s.thr t).destr = [] ∧ (s.thr t).todo = .idle

/-- Nobody is in the middle of an operation that touches `d`. -/
def St.untouched (s : St N T) (d : Fin N) : Prop := ∀ t, d ∉ (s.thr t).todo.mentions
/-- Nobody is in the middle of an operation that modifies `d`. -/
def St.unwritten (s : St N T) (d : Fin N) : Prop := ∀ t, d ∉ (s.thr t).todo.writes

/-- A variable in the storage of some thread. -/
def St.isVar (s : St N T) (d : Fin N) : Prop := ∃ t, s.owner d = .thr t
/-- `d` is a member of the node which thread `t`'s handle `h` points to. -/
def St.memberVia (s : St N T) (t : Fin T) (h d : Fin N) : Prop :=
  s.owner h = .thr t ∧ ∃ o, s.ptr h = some o ∧ s.owner d = .mem o

/-- The obligations of the program using the handles: it declares a variable before use, uses only its own variables for
writing, does not modify a variable while another thread is using it (no data race on the handle itself), reaches members of a
node only through a handle it holds, and passes variables (not members) as the source of an assignment. -/
def legal (s : St N T) (t : Fin T) : Act N T → Prop
  | .declare d => s.idle t ∧ s.owner d = .dead
  | .new d o ms => s.idle t ∧ s.owner d = .dead ∧ s.life o = .unborn ∧ ms.Nodup ∧ d ∉ ms ∧ ∀ m ∈ ms, s.owner m = .dead
  | .copyCtor d x none => s.idle t ∧ s.owner d = .dead ∧ s.isVar x ∧ s.unwritten x
  | .copyCtor d x (some h) => s.idle t ∧ s.owner d = .dead ∧ s.memberVia t h x ∧ s.unwritten x
  | .moveCtor d x => s.idle t ∧ s.owner d = .dead ∧ s.owner x = .thr t ∧ s.untouched x
  | .copyAssign d x none => s.idle t ∧ s.owner d = .thr t ∧ s.untouched d ∧ s.isVar x ∧ s.unwritten x
  | .copyAssign d x (some h) => s.idle t ∧ s.memberVia t h d ∧ s.untouched d ∧ s.unwritten h ∧ s.isVar x ∧ s.unwritten x
  | .swapAssign d x => s.idle t ∧ s.owner d = .thr t ∧ s.untouched d ∧ s.owner x = .thr t ∧ s.untouched x
  | .takeAssign d x => s.idle t ∧ s.owner d = .thr t ∧ s.untouched d ∧ s.owner x = .thr t ∧ s.untouched x ∧ d ≠ x
  | .destroy d => s.idle t ∧ s.owner d = .thr t ∧ s.untouched d
  | .use h => s.idle t ∧ s.isVar h ∧ s.unwritten h ∧ s.ptr h ≠ none
  | .give d _ => s.idle t ∧ s.owner d = .thr t
  | .run => ¬ s.idle t

/-- Reachable states: any number of legal steps by any threads in any order. -/
inductive Reach : St N T → Prop
  | init : Reach St.init
  | step {s s' : St N T} (t : Fin T) (a : Act N T) : Reach s → legal s t a → exec s t a = some s' → Reach s'

/-! ### Specification vocabulary -/

/-- Number of pointer variables (in threads or inside nodes) that point to `o`. -/
def pointers (s : St N T) (o : Obj) : Nat := ∑ d : Fin N, if s.ptr d = some o then 1 else 0

/-- The reference an unfinished copy assignment has already acquired. -/
def Todo.holds (o : Obj) : Todo N → Nat
  | .relAssign _ _ g _ => if g = some o then 1 else 0
  | .finAssign _ _ g _ => if g = some o then 1 else 0
  | _ => 0

/-- References to `o`: pointers, and copies under way. -/
def refs (s : St N T) (o : Obj) : Nat := pointers s o + ∑ t : Fin T, (s.thr t).todo.holds o

/-- No thread is in the middle of an operation. -/
def quiet (s : St N T) : Prop := ∀ t, s.idle t

/-- SmartNode.h:247-255 `use_count()` of a handle to `o`. -/
def useCount (s : St N T) (o : Obj) : Nat := s.cnt o

end FastNoise.RefCount
