import Verif.Chunks

/-! Specification vocabulary for the streaming of chunks. -/

namespace FastNoise.Chunks
open FastNoise.Mesh

/-- A chunk position: a point of the grid of spacing 128. -/
def OnGrid (p : I3) : Prop := 128 ∣ p.x ∧ 128 ∣ p.y ∧ 128 ∣ p.z

/-- Squared distance that decides about loading: for height maps the height of the camera does not count. -/
def reach (height : Bool) (cam p : I3) : ℤ := if height then (cam.x - p.x) ^ 2 + p.y ^ 2 + (cam.z - p.z) ^ 2 else (cam.x - p.x) ^ 2 + (cam.y - p.y) ^ 2 + (cam.z - p.z) ^ 2

/-- The chunk at `p` should be loaded: it is a chunk (one layer only for height maps), and within the load range. -/
def Wanted (height : Bool) (range : ℝ) (cam p : I3) : Prop := OnGrid p ∧ (height = true → p.y = 0) ∧ (reach height cam p : ℝ) ≤ range ^ 2

/-- Column of the chunk at `p`, counted from the column of the camera. -/
def column (cam p : I3) : ℤ := p.x / 128 - cam.x.tdiv 128

/-- The positions the program is dealing with: shown, queued, being built for the current version, or built. -/
def live (s : St) : List I3 :=
  s.chunks.map Job.pos ++ s.jobs.map Job.pos ++ (s.busy.filter fun j => j.gen = s.gen).map Job.pos ++ s.done.map Job.pos

/-- The main thread is between two of its calls. -/
def Idle (s : St) : Prop := s.draining = false ∧ s.pending = []

/-- Steps of worker threads and pushes of the main thread. -/
def Op.quiet : Op → Bool
  | .push | .take | .finish _ => true
  | _ => false

/-- Number of requests (frames) in a schedule. -/
def requests : List Op → Nat
  | [] => 0
  | .request _ _ :: ops => requests ops + 1
  | _ :: ops => requests ops

/-- A schedule in which the camera stands at `cam` and nothing is unloaded, restarted or shrunk. -/
def Steady (cam : I3) (ops : List Op) : Prop := ∀ op ∈ ops, match op with
  | .request c _ => c = cam
  | .regenerate _ | .unload _ | .shrink => False
  | _ => True

end FastNoise.Chunks
