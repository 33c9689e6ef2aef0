import Verif.MeshSpec
import Mathlib.Analysis.SpecialFunctions.Pow.Real

/-!
# Chunk streaming of the mesh preview: `ReGenerate`, `UpdateChunkQueues`, `UpdateChunksForPosition`, `GenerateLoopThread`
(tools/NodeEditor/MeshNoisePreview.cpp:109-137, 255-418)

The main thread requests chunks, worker threads build them.  Each critical section of a queue is one step; the steps of the workers may come between any two steps of the
main thread.  The camera enters as `Vector3i( position - SIZE / 2 )` (269, 329); `float` is modelled by the reals, `int` by integers (all numbers are far below 2^31 for
camera positions the `int` conversion accepts).  Conditions that depend on timers and triangle counts (277, 298, 301, 317) are free choices of the schedule.
-/

namespace FastNoise.Chunks
open FastNoise.Mesh

/-- `Chunk::SIZE` (MeshNoisePreview.h:157). -/
def SIZE : ℤ := 128

/-- What a queue element or chunk carries of `BuildData` / `MeshData`: `pos`, `genVersion`, and as a ghost the number of the `ReGenerate` call. -/
structure Job where
  pos : I3
  version : UInt32
  gen : Nat
deriving DecidableEq

/-- `( a - b ).dot()` of integer vectors. -/
def dist2 (a b : I3) : ℤ := (a.x - b.x) * (a.x - b.x) + (a.y - b.y) * (a.y - b.y) + (a.z - b.z) * (a.z - b.z)

/-- 331: `( positionI / Chunk::SIZE ) * Chunk::SIZE`; `int` division truncates. -/
def chunkCenter (p : I3) : I3 := ⟨p.x.tdiv SIZE * SIZE, p.y.tdiv SIZE * SIZE, p.z.tdiv SIZE * SIZE⟩

/-- `for( int i = -n; i <= n; i++ )`. -/
def around (n : Nat) : List ℤ := (List.range (2 * n + 1)).map fun i : Nat => (i : ℤ) - n

/-- 326: `(int)ceilf( mLoadRange / Chunk::SIZE )`. -/
noncomputable def chunkRange (range : ℝ) : Nat := ⌈range / 128⌉₊

/-- 335: `(int)( mLoadRange * mLoadRange )`. -/
noncomputable def loadRangeSq (range : ℝ) : ℤ := ⌊range * range⌋

/-- 337: `std::min( 5, (int)( ( loadRangeSq * (int64_t)mLoadRange ) / 1000000000 ) )`. -/
noncomputable def staggerShift (range : ℝ) : Nat := min 5 ((loadRangeSq range).toNat * ⌊range⌋₊ / 1000000000)

/-- 342: is this x skipped in this frame?  `x & ( 2^shift - 1 )` of a two's complement number is its residue. -/
def skipped (shift stagger : Nat) (x : ℤ) : Bool := x % (2 : ℤ) ^ shift != (stagger : ℤ) % (2 : ℤ) ^ shift

/-- 353-354: `positionI` inside and after the loops. -/
def ground (height : Bool) (cam : I3) : I3 := if height then ⟨cam.x, 0, cam.z⟩ else cam

open Classical in
/-- 340-378: the positions of this frame, in the order of the loops.  For height maps the y loop runs once, with `chunkPos.y = 0` and `positionI.y = 0` (353-358). -/
noncomputable def candidates (height : Bool) (range : ℝ) (stagger : Nat) (registered : List I3) (cam : I3) : List I3 :=
  let n := chunkRange range
  let c := chunkCenter cam
  let cam' : I3 := ground height cam
  let ys : List ℤ := if height then [0] else (around n).map fun y => y * SIZE + c.y
  (((around n).filter fun x => !skipped (staggerShift range) stagger x).flatMap fun x =>
    ys.flatMap fun y => (around n).map fun z => (⟨x * SIZE + c.x, y, z * SIZE + c.z⟩ : I3)).filter fun p =>
      decide (dist2 cam' p ≤ loadRangeSq range) && decide (p ∉ registered)

/-- 381-384: a possible outcome of `std::sort` by distance. -/
def SortedBy (cam : I3) (l l' : List I3) : Prop := l'.Perm l ∧ l'.Pairwise fun a b => dist2 cam a ≤ dist2 cam b

/-- State of the preview. -/
structure St where
  height : Bool := false              -- mBuildData.meshType == MeshType_Heightmap2D
  range : ℝ := 300                    -- mLoadRange
  stagger : Nat := 0                  -- mStaggerCheck (an int that counts frames; no overflow)
  registered : List I3 := []          -- mRegisteredChunkPositions
  chunks : List Job := []             -- mChunks
  jobs : List Job := []               -- mGenerateQueue
  busy : List Job := []               -- jobs in the hands of workers
  done : List Job := []               -- mCompleteQueue
  cqVersion : UInt32 := 0             -- mCompleteQueue.mVersion
  version : UInt32 := 0               -- mBuildData.genVersion
  gen : Nat := 0                      -- ghost: number of ReGenerate calls
  draining : Bool := false            -- main thread between 129 and the end of ReGenerate
  pending : List I3 := []             -- main thread inside the loop 386-395: positions still to push
  cut : Nat := 0                      -- ghost: frames whose requests were cut short by line 391
  threads : Nat := 2                  -- mThreads.size()

/-- 255-258 `GetLoadRangeModifier`. -/
noncomputable def rangeModifier (range : ℝ) : ℝ := min 0.01 (1000 / (min 1000 range) ^ (1.5 : ℝ))

inductive Op where
  | regenerate (height : Bool)               -- main: 111-129, also with a changed mesh type (189-190, 220-222)
  | drainOne                                 -- main: 132-135
  | drainEnd                                 -- main: 132, Pop returns false
  | shrink                                   -- main: 266
  | consume                                  -- main: 277-285
  | sort (cam : I3) (order : List Job)       -- main: 289-292
  | unload (cam : I3)                        -- main: 296-308, one round of the loop that does not break
  | grow                                     -- main: 319
  | request (cam : I3) (order : List I3)     -- main: 323-384
  | push                                     -- main: 386-395, one round
  | take                                     -- a worker: 402
  | finish (i : Nat)                         -- a worker: 409-414

open Classical in
/-- One step; `none` if it cannot happen in this state. -/
noncomputable def step (s : St) : Op → Option St
  | .regenerate h =>
    if s.draining ∨ s.pending ≠ [] then none else
      some { s with height := h, range := 200, registered := [], chunks := [], jobs := [], cqVersion := s.cqVersion + 1, version := s.cqVersion + 1,
                    gen := s.gen + 1, draining := true }
  | .drainOne => if s.draining then (match s.done with | [] => none | _ :: rest => some { s with done := rest }) else none
  | .drainEnd => if s.draining then (match s.done with | [] => some { s with draining := false } | _ => none) else none
  | .shrink => if s.draining ∨ s.pending ≠ [] then none else some { s with range := max (s.range * (1 - rangeModifier s.range)) (128 * 1.5) }
  | .consume =>
    if s.draining ∨ s.pending ≠ [] then none else
      match s.done with
      | [] => none
      | j :: rest => some { s with done := rest, chunks := s.chunks ++ [j] }
  | .sort cam order =>
    if s.draining ∨ s.pending ≠ [] then none
    else if order.Perm s.chunks ∧ order.Pairwise (fun a b => dist2 cam a.pos ≤ dist2 cam b.pos) then some { s with chunks := order } else none
  | .unload cam =>
    if s.draining ∨ s.pending ≠ [] then none else
      match s.chunks.getLast? with
      | none => none
      | some j =>
        if (dist2 cam j.pos : ℝ) > (s.range * 1.1) * (s.range * 1.1) then
          some { s with registered := s.registered.filter (· ≠ j.pos), chunks := s.chunks.dropLast }
        else none
  | .grow => if s.draining ∨ s.pending ≠ [] then none else some { s with range := min (s.range * (1 + rangeModifier s.range)) 3000 }
  | .request cam order =>
    if s.draining ∨ s.pending ≠ [] then none
    else if SortedBy (ground s.height cam) (candidates s.height s.range s.stagger s.registered cam) order then
      some { s with pending := order, stagger := s.stagger + 1 }
    else none
  | .push =>
    match s.pending with
    | [] => none
    | p :: rest =>
      let jobs := s.jobs ++ [⟨p, s.version, s.gen⟩]
      let s' := { s with registered := p :: s.registered, jobs := jobs, pending := rest }
      if jobs.length ≥ s.threads * 16 then some { s' with pending := [], cut := s.cut + (if rest = [] then 0 else 1) } else some s'
  | .take =>
    match s.jobs with
    | [] => none
    | j :: rest => some { s with jobs := rest, busy := j :: s.busy }
  | .finish i =>
    match s.busy[i]? with
    | none => none
    | some j =>
      if j.version = s.cqVersion then some { s with busy := s.busy.eraseIdx i, done := s.done ++ [j] } else some { s with busy := s.busy.eraseIdx i }

/-- Run a schedule. -/
noncomputable def run (s : St) : List Op → Option St
  | [] => some s
  | op :: ops => (step s op).bind fun s' => run s' ops

end FastNoise.Chunks
