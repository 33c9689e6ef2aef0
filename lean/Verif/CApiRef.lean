import Verif.RefCountProps

/-! # Node ownership through the C API

The C API hands out raw node pointers whose reference is counted by hand (FastNoise_C.cpp:7-12).  A C handle is modelled as a
counted pointer variable of the reference counting machine of `RefCount.lean`; the C functions are fixed programs of that
machine's operations plus `fnDeleteNodeRef`.  Any number of threads may call the C API; all interleavings are covered. -/

namespace FastNoise.RefCount

variable {N T : Nat}

/-- Steps of a program using the C API: the machine's operations, and `fnDeleteNodeRef( d )`. -/
inductive CAct (N T : Nat) where
  | base (a : Act N T)
  | deleteRef (d : Fin N)

/-- FastNoise_C.cpp:52-55 `fnDeleteNodeRef` -> 9-12 `BumpNodeRefences( node, false )`: `ReferencesFetchAdd( -1 )`, and nothing
else — the returned previous count is not looked at.  The caller forgets its handle. -/
def cexec (s : St N T) (t : Fin T) : CAct N T → Option (St N T)
  | .base a => exec s t a
  | .deleteRef d =>
    if s.owner d = .dead then none else
    match s.ptr d with
    | none => none
    | some o =>
      if s.life o = .live then
        some ({ s with cnt := Function.update s.cnt o ((s.cnt o + (2 ^ 32 - 1)) % 2 ^ 32) }.setPtr d none |>.setOwner d .dead)
      else none

/-- A correct client deletes only handles it holds and that nobody is using at that moment. -/
def clegal (s : St N T) (t : Fin T) : CAct N T → Prop
  | .base a => legal s t a
  | .deleteRef d => s.idle t ∧ s.owner d = .thr t ∧ s.untouched d ∧ s.ptr d ≠ none

inductive CReach : St N T → Prop
  | init : CReach St.init
  | step {s s' : St N T} (t : Fin T) (a : CAct N T) : CReach s → clegal s t a → cexec s t a = some s' → CReach s'

/-- Later states. -/
inductive CSteps : St N T → St N T → Prop
  | refl (s) : CSteps s s
  | step {s s' s''} (t : Fin T) (a : CAct N T) : CSteps s s' → clegal s' t a → cexec s' t a = some s'' → CSteps s s''

/-- FastNoise_C.cpp:131-141 `fnNewFromMetadata` (and 41-50 for a one-node tree): create the node in a temporary `SmartNode`,
count the caller's reference by hand, destroy the temporary. -/
def fnNew (tmp h : Fin N) (o : Obj) (ms : List (Fin N)) : List (Act N T) := [.new tmp o ms, .copyCtor h tmp none, .destroy tmp, .run]

/-- FastNoise_C.cpp:276-285 `fnSetNodeLookup` / 322-331 `fnSetHybridNodeLookup`: wrap the raw pointer in a temporary `SmartNode`
(14-19 `ToSmartNode`), assign it to the member, destroy the temporary.  The steps that carry on with a destructor chain (`run`)
follow as often as needed. -/
def fnSetLookup (tmp h src m : Fin N) : List (Act N T) := [.copyCtor tmp src none, .copyAssign m tmp (some h), .destroy tmp]

/-- Run a program of one thread. -/
def execs (s : St N T) (t : Fin T) : List (Act N T) → Option (St N T)
  | [] => some s
  | a :: r => (exec s t a).bind fun s' => execs s' t r

end FastNoise.RefCount
