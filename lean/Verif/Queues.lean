/-!
# `tools/NodeEditor/MultiThreadQueues.h` and its use by the mesh preview

The mutex of each queue makes every critical section one atomic step.  Condition variable: `wait` releases the mutex and
puts the thread to sleep; `notify_one` wakes any one sleeping thread (none if nobody sleeps), `notify_all` wakes all;
a sleeper may also wake spuriously; a woken thread re-checks the loop condition when it gets the mutex.
`Push` notifies after unlocking, so its notification is a separate later step.
-/

namespace FastNoise.Queues

/-- State of a `GenerateQueue` (MultiThreadQueues.h:61-65) and of the threads inside `Pop`. -/
structure GQ (α : Type) where
  items : List α := []          -- mQueue, front first
  kill : Bool := false          -- mKillThreads
  waiting : List Nat := []      -- threads sleeping in mCond.wait (line 44)
  woken : List Nat := []        -- threads woken from line 44, waiting for the mutex
  pending : Nat := 0            -- Push calls between line 56 and 57
deriving DecidableEq, Repr

/-- Atomic steps. -/
inductive GOp (α : Type)
  | push (v : α)               -- lines 53-56
  | notify (t : Option Nat)    -- line 57: wakes `t`, or nobody if nobody sleeps
  | kill                       -- lines 10-15
  | clear                      -- lines 22-26
  | popEnter (t : Nat)         -- lines 36-48 up to return or the wait
  | popResume (t : Nat)        -- from the wait, back to line 37
  | spurious (t : Nat)         -- spurious wake up
deriving DecidableEq, Repr

/-- What a step reports to its caller. -/
inductive GEv (α : Type)
  | none
  | got (t : Nat) (v : α)       -- Pop returned an item
  | empty (t : Nat)             -- Pop returned `{}`
  | size (n : Nat)              -- Push returned the queue size
deriving DecidableEq, Repr

/-- The loop of `Pop` (lines 37-48) entered by thread `t` holding the mutex. -/
def popLoop {α : Type} (s : GQ α) (t : Nat) : GQ α × GEv α :=
  if s.kill then (s, .empty t)
  else match s.items with
    | [] => ({ s with waiting := t :: s.waiting }, .none)
    | v :: rest => ({ s with items := rest }, .got t v)

/-- One atomic step; `none` if it cannot happen in this state. -/
def gstep {α : Type} (s : GQ α) : GOp α → Option (GQ α × GEv α)
  | .push v => some ({ s with items := s.items ++ [v], pending := s.pending + 1 }, .size (s.items.length + 1))
  | .notify none => if 0 < s.pending ∧ s.waiting = [] then some ({ s with pending := s.pending - 1 }, .none) else none
  | .notify (some t) =>
    if 0 < s.pending ∧ t ∈ s.waiting then
      some ({ s with pending := s.pending - 1, waiting := s.waiting.erase t, woken := t :: s.woken }, .none)
    else none
  | .kill => some ({ s with kill := true, waiting := [], woken := s.waiting ++ s.woken }, .none)
  | .clear => some ({ s with items := [] }, .none)
  | .popEnter t => if t ∈ s.waiting ∨ t ∈ s.woken then none else some (popLoop s t)
  | .popResume t => if t ∈ s.woken then some (popLoop { s with woken := s.woken.erase t } t) else none
  | .spurious t =>
    if t ∈ s.waiting then some ({ s with waiting := s.waiting.erase t, woken := t :: s.woken }, .none) else none

/-- Run a schedule of atomic steps, collecting what the calls report. -/
def grun {α : Type} : GQ α → List (GOp α) → Option (GQ α × List (GEv α))
  | s, [] => some (s, [])
  | s, op :: ops => match gstep s op with
    | none => none
    | some (s', e) => match grun s' ops with
      | none => none
      | some (s'', es) => some (s'', e :: es)

/-- State of a `CompleteQueue` (MultiThreadQueues.h:108-110); `mVersion` is a `uint32_t`. -/
structure CQ (α : Type) where
  version : UInt32 := 0
  items : List α := []

/-- Calls on a `CompleteQueue`; each is one critical section. -/
inductive COp (α : Type)
  | incVersion
  | push (v : α) (version : UInt32)
  | pop

/-- Result of a call. -/
inductive CEv (α : Type)
  | version (v : UInt32)
  | pushed (ok : Bool)
  | popped (v : Option α)
deriving DecidableEq, Repr

/-- `IncVersion`, `Push`, `Pop` (MultiThreadQueues.h:72-76, 96-105, 84-94). -/
def cstep {α : Type} (s : CQ α) : COp α → CQ α × CEv α
  | .incVersion => ({ s with version := s.version + 1 }, .version (s.version + 1))
  | .push v ver => if ver = s.version then ({ s with items := s.items ++ [v] }, .pushed true) else (s, .pushed false)
  | .pop => match s.items with
    | [] => (s, .popped none)
    | v :: rest => ({ s with items := rest }, .popped (some v))

def crun {α : Type} (s : CQ α) : List (COp α) → CQ α × List (CEv α)
  | [] => (s, [])
  | op :: ops =>
    let r := cstep s op
    let r' := crun r.1 ops
    (r'.1, r.2 :: r'.2)

/-! ### The mesh preview: main thread and workers around the two queues (MeshNoisePreview.cpp:102-136, 262-290, 388-418) -/

/-- A job or result carries the generation version it was made for (`genVersion`) and, as a ghost, the number of the
`ReGenerate` call it belongs to. -/
structure Job where
  version : UInt32
  gen : Nat
deriving DecidableEq, Repr

/-- System state.  `gen` counts `ReGenerate` calls (ghost); `version` is `mBuildData.genVersion`. -/
structure Mesh where
  jobs : List Job := []              -- mGenerateQueue
  busy : List Job := []              -- jobs popped by workers and being built
  cqVersion : UInt32 := 0            -- mCompleteQueue.mVersion
  done : List Job := []              -- mCompleteQueue.mQueue
  version : UInt32 := 0              -- mBuildData.genVersion
  gen : Nat := 0
  draining : Bool := false           -- main thread inside ReGenerate, lines 131-135
  shown : List (Nat × Job) := []     -- ghost: (gen at that time, result) taken by UpdateChunkQueues
deriving DecidableEq, Repr

inductive MOp
  | regenerate            -- main: lines 128-129 (Clear, IncVersion)
  | drainOne              -- main: lines 132-135, one result discarded
  | drainEnd              -- main: Pop returned false
  | request               -- main: line 388, push a job
  | consume               -- main: lines 277-285
  | take (i : Nat)        -- a worker pops job i = 0 (front)
  | finish (i : Nat)      -- a worker pushes the result of busy job i (lines 409-414)
deriving DecidableEq, Repr

/-- One step; `none` if it cannot happen. -/
def mstep (s : Mesh) : MOp → Option Mesh
  | .regenerate => if s.draining then none else
      some { s with jobs := [], cqVersion := s.cqVersion + 1, version := s.cqVersion + 1, gen := s.gen + 1, draining := true }
  | .drainOne => if s.draining then match s.done with
      | [] => none
      | _ :: rest => some { s with done := rest }
    else none
  | .drainEnd => if s.draining then (if s.done = [] then some { s with draining := false } else none) else none
  | .request => if s.draining then none else some { s with jobs := s.jobs ++ [⟨s.version, s.gen⟩] }
  | .consume => if s.draining then none else match s.done with
      | [] => none
      | j :: rest => some { s with done := rest, shown := s.shown ++ [(s.gen, j)] }
  | .take i => if i = 0 then match s.jobs with
      | [] => none
      | j :: rest => some { s with jobs := rest, busy := j :: s.busy }
    else none
  | .finish i => match s.busy[i]? with
      | none => none
      | some j =>
        if j.version = s.cqVersion then some { s with busy := s.busy.eraseIdx i, done := s.done ++ [j] }
        else some { s with busy := s.busy.eraseIdx i }

def mrun (s : Mesh) : List MOp → Option Mesh
  | [] => some s
  | op :: ops => match mstep s op with
    | none => none
    | some s' => mrun s' ops

/-! ### The texture preview (NoiseTexture.cpp:64-76, 472-497, 543-561)

Results carry the iteration number; the preview shows a result only if it is newer than the one shown. -/

structure Tex where
  iteration : Nat := 0         -- mBuildData.iteration (uint64_t)
  current : Nat := 0           -- mCurrentIteration
  jobs : List Nat := []
  busy : List Nat := []
  done : List Nat := []
  shown : List Nat := []       -- ghost: iterations of the images shown, oldest first
deriving DecidableEq, Repr

inductive TOp
  | regenerate (hasGenerator sizeOk : Bool)   -- lines 472-497
  | take
  | finish (i : Nat)
  | draw                                      -- lines 66-76
deriving DecidableEq, Repr

def tstep (s : Tex) : TOp → Option Tex
  | .regenerate g ok =>
    let s := { s with iteration := s.iteration + 1, jobs := [] }
    if !ok then some s
    else if g then some { s with jobs := s.jobs ++ [s.iteration] }
    else some { s with current := s.iteration, shown := s.shown ++ [s.iteration] }
  | .take => match s.jobs with
    | [] => none
    | j :: rest => some { s with jobs := rest, busy := j :: s.busy }
  | .finish i => match s.busy[i]? with
    | none => none
    | some j => some { s with busy := s.busy.eraseIdx i, done := s.done ++ [j] }
  | .draw => match s.done with
    | [] => some s
    | j :: rest =>
      if s.current < j then some { s with done := rest, current := j, shown := s.shown ++ [j] }
      else some { s with done := rest }

def trun (s : Tex) : List TOp → Option Tex
  | [] => some s
  | op :: ops => match tstep s op with
    | none => none
    | some s' => trun s' ops

end FastNoise.Queues
