import Verif.ChunksRun
import Verif.MeshProps
import Verif.BloxelProps
import Verif.HeightProps

/-!
# C49: streaming of the preview's chunks

Schedules of the main thread and any number of worker threads, from a fresh preview.  `cam` is the camera position moved by half a chunk, so that distances to a
chunk's position are distances of the camera to its middle.
-/

namespace FastNoise.Chunks
open FastNoise.Mesh

/-- States of the program: what some schedule leads to, with fewer than 2^32 restarts. -/
def Reachable (s : St) : Prop := ∃ h n ops, run { height := h, threads := n } ops = some s ∧ s.gen < 2 ^ 32

theorem Reachable.inv {s : St} (h : Reachable s) : Inv s := by
  obtain ⟨hh, n, ops, hr, hb⟩ := h
  exact (run_inv hb (init_inv hh n) hr).1

theorem Reachable.lt {s : St} (h : Reachable s) : s.gen < 2 ^ 32 := by
  obtain ⟨_, _, _, _, hb⟩ := h
  exact hb

theorem Reachable.flat {s : St} (h : Reachable s) : Flat s := by
  obtain ⟨hh, n, ops, hr, hb⟩ := h
  exact flat_run hb (init_inv hh n) (fun _ => by simp) hr

theorem reachable_init (h : Bool) (n : Nat) : Reachable { height := h, threads := n } := ⟨h, n, [], rfl, by norm_num⟩

theorem Reachable.run {s s' : St} {ops : List Op} (h : Reachable s) (hr : run s ops = some s') (hb : s'.gen < 2 ^ 32) : Reachable s' := by
  obtain ⟨hh, n, ops0, h0, _⟩ := h
  exact ⟨hh, n, ops0 ++ ops, run_append.mpr ⟨s, h0, hr⟩, hb⟩

theorem shift_300 : staggerShift 300 = 0 := by
  have h1 : loadRangeSq 300 = 90000 := by unfold loadRangeSq; norm_num
  have h2 : ⌊(300 : ℝ)⌋₊ = 300 := by
    have : (300 : ℝ) = ((300 : ℕ) : ℝ) := by norm_num
    rw [this, Nat.floor_natCast]
  unfold staggerShift
  rw [h1, h2]
  rfl

/-- Witness: the first frame of a fresh preview over the origin, in which the nearest chunk, the one at the origin, is built. -/
theorem first_frame (h : Bool) : ∃ s order ops, Reachable s ∧ run { height := h } (.request ⟨0, 0, 0⟩ order :: ops) = some s ∧ (∀ op ∈ ops, op.quiet = true) ∧ Idle s ∧
    s.jobs = [] ∧ s.done = [] ∧ s.chunks = [] ∧ s.height = h ∧ s.range = 300 ∧ s.gen = 0 ∧ s.cqVersion = 0 ∧ s.threads = 2 ∧
    ∃ i : Nat, s.busy[i]? = some (⟨⟨0, 0, 0⟩, 0, 0⟩ : Job) := by
  obtain ⟨order, ops, s, h1, h2, h3, h4, h5⟩ := frame_exists (s := { height := h }) ⟨rfl, rfl⟩ rfl (show 0 < 2 by norm_num) ⟨0, 0, 0⟩
  have hmem : (⟨0, 0, 0⟩ : I3) ∈ order := by
    refine h1.1.mem_iff.mpr ((mem_candidates (by norm_num)).mpr ⟨⟨⟨dvd_zero _, dvd_zero _, dvd_zero _⟩, fun _ => rfl, ?_⟩, by simp, ?_⟩)
    · simp [reach]
    · simp [column]
  have hb : (⟨⟨0, 0, 0⟩, 0, 0⟩ : Job) ∈ s.busy := by
    rw [h5]
    simp only [List.append_nil, List.mem_reverse, List.mem_map]
    exact ⟨_, hmem, rfl⟩
  obtain ⟨i, hi⟩ := List.mem_iff_getElem?.mp hb
  refine ⟨s, order, ops, ⟨h, 2, _, h3, by rw [h4]; norm_num⟩, h3, h2, ?_, by rw [h4], by rw [h4], by rw [h4], by rw [h4], by rw [h4], by rw [h4], by rw [h4], by rw [h4], i, hi⟩
  rw [h4]; exact ⟨rfl, rfl⟩

/-- Witness: a preview that shows the chunk at the origin. -/
theorem one_shown (h : Bool) : ∃ s, Reachable s ∧ Idle s ∧ s.jobs = [] ∧ s.chunks = [⟨⟨0, 0, 0⟩, 0, 0⟩] ∧ s.height = h ∧ s.range = 300 := by
  obtain ⟨s, _, _, hr, _, _, hi, hj, hd, hc, hh, hrange, hg, hv, _, i, hb⟩ := first_frame h
  have h1 : step s (.finish i) = some { s with busy := s.busy.eraseIdx i, done := [⟨⟨0, 0, 0⟩, 0, 0⟩] } := by
    simp only [step, hb, hv, if_true, hd, List.nil_append]
  have h2 : step { s with busy := s.busy.eraseIdx i, done := [⟨⟨0, 0, 0⟩, 0, 0⟩] } .consume =
      some { s with busy := s.busy.eraseIdx i, done := [], chunks := [⟨⟨0, 0, 0⟩, 0, 0⟩] } := by
    simp [step, hi.1, hi.2, hc]
  exact ⟨{ s with busy := s.busy.eraseIdx i, done := [], chunks := [⟨⟨0, 0, 0⟩, 0, 0⟩] }, hr.run (ops := [.finish i, .consume]) (run_cons.mpr ⟨_, h1, run_cons.mpr ⟨_, h2, rfl⟩⟩) (by simp [hg]), hi, hj, rfl, hh, hrange⟩

/-- **C49.** Whatever the schedule: except while old results are being thrown away, the chunks that are shown, queued, under construction for the current settings
or waiting to be shown are exactly the registered ones, each of them once. -/
theorem C49_each_chunk_once {s : St} (h : Reachable s) (hd : s.draining = false) : s.registered.Nodup ∧ (live s).Perm s.registered :=
  ⟨h.inv.nodup, List.perm_iff_count.mpr (h.inv.count hd)⟩

/-- Non-vacuity: a reachable state with a shown chunk and others under construction. -/
example : ∃ s, Reachable s ∧ s.draining = false ∧ (⟨0, 0, 0⟩ : I3) ∈ s.chunks.map Job.pos := by
  obtain ⟨s, hr, hi, _, hc, _⟩ := one_shown false
  exact ⟨s, hr, hi.1, by simp [hc]⟩

/-- **C49.** Only chunks of the current settings are shown, also while old results are being thrown away. -/
theorem C49_shown_current {s : St} (h : Reachable s) : ∀ j ∈ s.chunks, j.gen = s.gen := h.inv.chunks

/-- **C49.** The unsigned counters of the display, `registered - shown` and `registered - shown - queued`, do not wrap around. -/
theorem C49_counters {s : St} (h : Reachable s) : s.chunks.length + s.jobs.length ≤ s.registered.length := by
  cases hd : s.draining with
  | true => obtain ⟨h1, h2, h3, _⟩ := h.inv.drain hd; simp [h1, h2, h3]
  | false =>
    have := (C49_each_chunk_once h hd).2.length_eq
    simp only [live, List.length_append, List.length_map] at this
    omega

/-- **C49.** The load range stays between one and a half chunks and 3000. -/
theorem C49_range {s : St} (h : Reachable s) : 192 ≤ s.range ∧ s.range ≤ 3000 := h.inv.range

/-- **C49.** Per frame the load range grows or shrinks by one percent, within its limits, and only in these steps.  (The formula of `GetLoadRangeModifier` was meant to slow
this down for large ranges; it never gets below one percent.) -/
theorem C49_range_rate {s s' : St} (h : Reachable s) {op : Op} (hs : step s op = some s') :
    (op = .grow ∧ s'.range = min (s.range * 1.01) 3000) ∨ (op = .shrink ∧ s'.range = max (s.range * 0.99) 192) ∨
      ((∃ b, op = .regenerate b) ∧ s'.range = 200) ∨ (op ≠ .grow ∧ op ≠ .shrink ∧ (∀ b, op ≠ .regenerate b) ∧ s'.range = s.range) := by
  have hm := modifier_eq (r := s.range) (by have := h.inv.range.1; linarith)
  cases op with
  | grow =>
    left
    simp only [step, hm] at hs
    split at hs
    · cases hs
    · cases hs; refine ⟨rfl, ?_⟩; norm_num
  | shrink =>
    right; left
    simp only [step, hm] at hs
    split at hs
    · cases hs
    · cases hs; refine ⟨rfl, ?_⟩; norm_num
  | regenerate b =>
    right; right; left
    simp only [step] at hs
    split at hs
    · cases hs
    · cases hs; exact ⟨⟨b, rfl⟩, rfl⟩
  | _ =>
    right; right; right
    refine ⟨by simp, by simp, by simp, ?_⟩
    simp only [step] at hs
    repeat' split at hs
    all_goals first | (cases hs; rfl) | cases hs

/-- Non-vacuity: the range of a new preview, 300, grows to 303 (`mLoadRange` starts with 300, MeshNoisePreview.h:203). -/
example : Reachable {} ∧ ∃ s', step {} .grow = some s' ∧ s'.range = 303 := by
  refine ⟨reachable_init false 2, _, by simp [step]; rfl, ?_⟩
  rw [modifier_eq (by norm_num)]
  norm_num

theorem apart_of_grid {l : List I3} (hn : l.Nodup) (hg : ∀ p ∈ l, OnGrid p) : Apart 128 l := by
  refine List.Pairwise.imp_of_mem ?_ hn
  rintro ⟨a, b, c⟩ ⟨a', b', c'⟩ h1 h2 hne v ⟨i1, i2⟩
  refine hne ?_
  obtain ⟨⟨k1, rfl⟩, ⟨k2, rfl⟩, ⟨k3, rfl⟩⟩ := hg _ h1
  obtain ⟨⟨l1, rfl⟩, ⟨l2, rfl⟩, ⟨l3, rfl⟩⟩ := hg _ h2
  simp only [InChunk] at i1 i2
  rw [I3.mk.injEq]
  refine ⟨?_, ?_, ?_⟩ <;> omega

/-- **C49.** The shown chunks lie on the grid and do not overlap. -/
theorem C49_shown_apart {s : St} (h : Reachable s) : (∀ j ∈ s.chunks, OnGrid j.pos) ∧ Apart 128 (s.chunks.map Job.pos) := by
  cases hd : s.draining with
  | true => rw [(h.inv.drain hd).2.1]; simp [Apart]
  | false =>
    obtain ⟨h1, h2⟩ := C49_each_chunk_once h hd
    have hg : ∀ p ∈ s.chunks.map Job.pos, OnGrid p := fun p hp => h.inv.grid.1 p (h2.mem_iff.mp (by simp only [live, List.mem_append]; tauto))
    refine ⟨fun j hj => hg _ (List.mem_map_of_mem hj), apart_of_grid ?_ hg⟩
    have := h2.nodup_iff.mpr h1
    simp only [live] at this
    exact ((List.nodup_append.mp (List.nodup_append.mp (List.nodup_append.mp this).1).1).1)

/-- **C49.** A frame requests exactly the missing chunks within the load range whose column it is the turn of, nearest first, without repetition. -/
theorem C49_request_exact {s s' : St} (h : Reachable s) {cam : I3} {order : List I3} (hr : step s (.request cam order) = some s') :
    s'.pending.Nodup ∧ (s'.pending.Pairwise fun a b => reach s.height cam a ≤ reach s.height cam b) ∧
      ∀ p, p ∈ s'.pending ↔ Wanted s.height s.range cam p ∧ p ∉ s.registered ∧ (2 : ℤ) ^ staggerShift s.range ∣ column cam p - s.stagger := by
  obtain ⟨_, ho, rfl⟩ := request_spec hr
  refine ⟨ho.1.nodup_iff.mpr (candidates_nodup _ _ _ _ _), ?_, fun p => ?_⟩
  · simpa only [reach_eq] using ho.2
  · rw [← mem_candidates (by linarith [h.inv.range.1])]
    exact ho.1.mem_iff

/-- **C49.** If the queue fills up in the middle of a frame, the chunks left out are farther away than (or as far as) those that were requested. -/
theorem C49_nearest_first {s s' : St} {cam : I3} {order : List I3} {ops : List Op} (h : Reachable s) (hq : ∀ op ∈ ops, op.quiet = true)
    (hrun : run s (.request cam order :: ops) = some s') {p q : I3} (hp : p ∈ order) (hp' : p ∉ s'.registered) (hq' : q ∈ s'.registered) (hnew : q ∉ s.registered) :
    reach s.height cam q ≤ reach s.height cam p := by
  obtain ⟨s1, h1, h2⟩ := run_cons.mp hrun
  obtain ⟨_, hsort, _⟩ := C49_request_exact h h1
  obtain ⟨_, _, rfl⟩ := request_spec h1
  obtain ⟨d, ⟨r, hr⟩, hd⟩ := quiet_prefix hq h2
  simp only at hr hd hsort
  rw [hd] at hq' hp'
  simp only [List.mem_append, List.mem_reverse, not_or] at hq' hp'
  rw [← hr] at hsort hp
  have hq'' : q ∈ d := by tauto
  have hp'' : p ∈ r := by simp only [List.mem_append] at hp; tauto
  exact (List.pairwise_append.mp hsort).2.2 q hq'' p hp''

theorem limit_step {s s' : St} {op : Op} {m : Nat} (hop : requests [op] = 0) (h : step s op = some s') (hm : s.threads * 16 ≤ m)
    (hi : s.jobs.length ≤ m ∧ (s.pending ≠ [] → s.jobs.length < m)) :
    s'.threads = s.threads ∧ s'.jobs.length ≤ m ∧ (s'.pending ≠ [] → s'.jobs.length < m) := by
  cases op with
  | request => simp [requests] at hop
  | push =>
    simp only [step] at h
    split at h
    · cases h
    · next p rest he =>
      have := hi.2 (by rw [he]; simp)
      split at h <;> cases h
      · simp; omega
      · next hl =>
        simp only [List.length_append, List.length_cons, List.length_nil, ge_iff_le, not_le] at hl ⊢
        exact ⟨trivial, by omega, fun _ => by omega⟩
  | take =>
    simp only [step] at h
    split at h
    · cases h
    · next he =>
      cases h
      rw [he] at hi
      simp only [List.length_cons] at hi
      exact ⟨rfl, by simp only; omega, fun hp => by have := hi.2 hp; simp only; omega⟩
  | regenerate =>
    simp only [step] at h
    split at h
    · cases h
    · next hc =>
      cases h
      refine ⟨rfl, by simp, fun hp => absurd ?_ hp⟩
      by_contra hne
      exact hc (Or.inr hne)
  | drainOne | drainEnd | shrink | consume | sort | unload | grow | finish =>
    simp only [step] at h
    repeat' split at h
    all_goals first
      | (cases h; done)
      | (cases h; exact ⟨rfl, hi⟩)

/-- **C49.** The queue of requests stays short: until the next frame starts it holds at most sixteen requests per worker, or one more than before the frame if it was
full already, whatever the workers do. -/
theorem C49_queue_limit {s s' : St} {cam : I3} {order : List I3} {ops : List Op} (hq : requests ops = 0)
    (hrun : run s (.request cam order :: ops) = some s') : s'.jobs.length ≤ max (s.threads * 16) (s.jobs.length + 1) := by
  obtain ⟨s1, h1, h2⟩ := run_cons.mp hrun
  obtain ⟨_, _, rfl⟩ := request_spec h1
  have key : ∀ (ops : List Op) (t t' : St), requests ops = 0 → run t ops = some t' → t.threads = s.threads →
      t.jobs.length ≤ max (s.threads * 16) (s.jobs.length + 1) ∧ (t.pending ≠ [] → t.jobs.length < max (s.threads * 16) (s.jobs.length + 1)) →
      t'.jobs.length ≤ max (s.threads * 16) (s.jobs.length + 1) := by
    intro ops
    induction ops with
    | nil => intro t t' _ h _ hi; cases h; exact hi.1
    | cons op ops ih =>
      intro t t' hr h ht hi
      obtain ⟨t1, h1, h2⟩ := run_cons.mp h
      rw [requests_cons] at hr
      obtain ⟨a, b⟩ := limit_step (by omega) h1 (by rw [ht]; exact Nat.le_max_left _ _) hi
      exact ih t1 t' (by omega) h2 (a.trans ht) b
  exact key ops _ _ hq h2 rfl ⟨by simp only; omega, fun _ => by simp only; omega⟩

/-- **C49.** A frame is cut short exactly when a request finds (or makes) the queue full, at sixteen requests per worker; otherwise the next position is requested. -/
theorem C49_cut_iff_full {s s' : St} {p : I3} {rest : List I3} (hp : s.pending = p :: rest) (h : step s .push = some s') :
    s'.jobs = s.jobs ++ [⟨p, s.version, s.gen⟩] ∧ s'.registered = p :: s.registered ∧ s'.pending = if s.jobs.length + 1 < s.threads * 16 then rest else [] := by
  simp only [step, hp] at h
  by_cases hl : s.jobs.length + 1 < s.threads * 16
  · rw [if_pos hl]
    rw [if_neg (by simp; omega)] at h
    cases h
    exact ⟨rfl, rfl, rfl⟩
  · rw [if_neg hl]
    rw [if_pos (by simp; omega)] at h
    cases h
    exact ⟨rfl, rfl, rfl⟩

/-- Non-vacuity: the first frame of a fresh preview, and its first request. -/
example : ∃ order ops s', requests ops = 0 ∧ run {} (.request ⟨0, 0, 0⟩ order :: ops) = some s' ∧ ops ≠ [] := by
  obtain ⟨s, order, ops, _, h, hq, hi, _, _, _, _, _, _, _, _, i, hb⟩ := first_frame false
  refine ⟨order, ops, s, ?_, h, ?_⟩
  · clear h
    induction ops with
    | nil => rfl
    | cons o l il =>
      have := hq o (by simp)
      rw [requests_cons, il fun x hx => hq x (by simp [hx])]
      cases o <;> first | (simp [Op.quiet] at this; done) | simp [requests]
  · rintro rfl
    obtain ⟨s1, h1, h2⟩ := run_cons.mp h
    obtain ⟨_, _, rfl⟩ := request_spec h1
    cases h2
    simp at hb

/-- **C49.** Coverage: while the camera stands still, nothing is unloaded and no frame is cut short by a full queue, 32 frames are enough to request every chunk
within the load range, whatever the workers do and even if the range grows. -/
theorem C49_coverage {s s' : St} {cam : I3} {ops : List Op} (h : Reachable s) (hs : Steady cam ops) (hrun : run s ops = some s')
    (hend : s'.pending = []) (hcut : s'.cut = s.cut) (h32 : 32 ≤ requests ops) {p : I3} (hw : Wanted s.height s.range cam p) : p ∈ s'.registered := by
  refine coverage h.lt h.inv hs hrun hend hcut hw ⟨s.stagger + ((column cam p - s.stagger) % 32).toNat, by omega, by omega, by omega⟩

theorem frames_exist (cam : I3) (n : Nat) {s : St} (hi : Idle s) (hj : s.jobs = []) (ht : 0 < s.threads) :
    ∃ ops s', Steady cam ops ∧ requests ops = n ∧ run s ops = some s' ∧ Idle s' ∧ s'.jobs = [] ∧ s'.cut = s.cut ∧ s'.threads = s.threads := by
  induction n generalizing s with
  | zero => exact ⟨[], s, by simp [Steady], rfl, rfl, hi, hj, rfl, rfl⟩
  | succ n ih =>
    obtain ⟨order, ops, s1, _, h2, h3, h4, _⟩ := frame_exists hi hj ht cam
    obtain ⟨ops', s2, i1, i2, i3, i4, i5, i6, i7⟩ := ih (s := s1) (by rw [h4]; exact hi) (by rw [h4]; exact hj) (by rw [h4]; exact ht)
    have hq : ∀ l : List Op, (∀ op ∈ l, op.quiet = true) → requests (l ++ ops') = requests ops' := by
      intro l
      induction l with
      | nil => intro _; rfl
      | cons o l il =>
        intro hl
        have := hl o (by simp)
        rw [List.cons_append, requests_cons, il fun x hx => hl x (by simp [hx])]
        cases o <;> first | (simp [Op.quiet] at this; done) | simp [requests]
    refine ⟨(.request cam order :: ops) ++ ops', s2, ?_, ?_, run_append.mpr ⟨s1, h3, i3⟩, i4, i5, by rw [i6, h4], by rw [i7, h4]⟩
    · intro op hop
      rcases List.mem_append.mp hop with hop | hop
      · rcases List.mem_cons.mp hop with rfl | hop
        · rfl
        · have := h2 op hop
          cases op <;> first | (simp [Op.quiet] at this; done) | trivial
      · exact i1 op hop
    · rw [List.cons_append, requests_cons, hq ops h2, i2]; simp [requests]; omega

/-- Non-vacuity: 32 frames of a fresh preview; the chunk at (128, -128, 0) ends up registered. -/
example : ∃ ops s', Steady ⟨5, 6, 7⟩ ops ∧ requests ops = 32 ∧ run {} ops = some s' ∧ (⟨128, -128, 0⟩ : I3) ∈ s'.registered := by
  obtain ⟨ops, s', h1, h2, h3, h4, _, h6, _⟩ := frames_exist ⟨5, 6, 7⟩ 32 (s := {}) ⟨rfl, rfl⟩ rfl (by decide)
  refine ⟨ops, s', h1, h2, h3, C49_coverage (s := {}) (reachable_init false 2) h1 h3 h4.2 h6 (by omega) ⟨by simp [OnGrid], by simp, ?_⟩⟩
  simp only [reach]
  norm_num

/-- Steps that bring requested chunks to the screen. -/
def Op.work : Op → Bool
  | .take | .finish _ | .consume => true
  | _ => false

theorem work_step {s s' : St} {op : Op} (hw : op.work = true) (h : step s op = some s') :
    3 * s'.jobs.length + 2 * s'.busy.length + s'.done.length + 1 ≤ 3 * s.jobs.length + 2 * s.busy.length + s.done.length ∧
      s'.registered = s.registered ∧ s'.draining = s.draining ∧ s'.pending = s.pending ∧ s'.gen = s.gen := by
  cases op with
  | take =>
    simp only [step] at h
    split at h
    · cases h
    · next he => cases h; simp [he]; omega
  | finish i =>
    simp only [step] at h
    split at h
    · cases h
    · next j he =>
      have hi := (eraseIdx_perm he).length_eq
      simp only [List.length_cons] at hi
      split at h <;> cases h
      · simp; omega
      · simp; omega
  | consume =>
    simp only [step] at h
    split at h
    · cases h
    · split at h
      · cases h
      · next he => cases h; simp [he]
  | _ => cases hw

/-- **C49.** Progress: from any point between two frames, the work on requested chunks comes to an end, and when no more work is possible every registered chunk is
shown. -/
theorem C49_progress {s s' : St} {ops : List Op} (h : Reachable s) (hidle : Idle s) (hw : ∀ op ∈ ops, op.work = true) (hrun : run s ops = some s') :
    ops.length ≤ 3 * s.jobs.length + 2 * s.busy.length + s.done.length ∧
      ((∀ op, op.work = true → step s' op = none) → s'.registered = s.registered ∧ (s'.chunks.map Job.pos).Perm s'.registered) := by
  have key : ∀ (ops : List Op) (s : St), (∀ op ∈ ops, op.work = true) → run s ops = some s' →
      3 * s'.jobs.length + 2 * s'.busy.length + s'.done.length + ops.length ≤ 3 * s.jobs.length + 2 * s.busy.length + s.done.length ∧
      s'.registered = s.registered ∧ s'.draining = s.draining ∧ s'.pending = s.pending ∧ s'.gen = s.gen := by
    intro ops
    induction ops with
    | nil => intro s _ h; cases h; simp
    | cons op ops ih =>
      intro s hw h
      obtain ⟨s1, h1, h2⟩ := run_cons.mp h
      obtain ⟨a1, a2, a3, a4, a5⟩ := work_step (hw op (by simp)) h1
      obtain ⟨b1, b2, b3, b4, b5⟩ := ih s1 (fun o ho => hw o (by simp [ho])) h2
      refine ⟨by simp only [List.length_cons]; omega, b2.trans a2, b3.trans a3, b4.trans a4, b5.trans a5⟩
  obtain ⟨k1, k2, k3, k4, k5⟩ := key ops s hw hrun
  refine ⟨by omega, fun hstuck => ⟨k2, ?_⟩⟩
  have hd : s'.draining = false := k3.trans hidle.1
  have hp : s'.pending = [] := k4.trans hidle.2
  obtain ⟨I, _⟩ := run_inv (by rw [k5]; exact h.lt) h.inv hrun
  have hj : s'.jobs = [] := by
    have := hstuck .take rfl
    simp only [step] at this
    split at this
    · assumption
    · cases this
  have hbz : s'.busy = [] := by
    have := hstuck (.finish 0) rfl
    simp only [step] at this
    split at this
    · next he => simpa using he
    · split at this <;> cases this
  have hdone : s'.done = [] := by
    have := hstuck .consume rfl
    simp only [step, hd, hp] at this
    simp only [Bool.false_eq_true, ne_eq, not_true_eq_false, or_self, if_false] at this
    split at this
    · assumption
    · cases this
  have := List.perm_iff_count.mpr (I.count hd)
  simpa [live, hj, hbz, hdone] using this

/-- Non-vacuity: after the first frame there is work to do. -/
example : ∃ s s' : St, ∃ ops, Reachable s ∧ Idle s ∧ (∀ op ∈ ops, op.work = true) ∧ run s ops = some s' ∧ ops ≠ [] := by
  obtain ⟨s, _, _, hr, _, _, hi, _, hd, _, _, _, _, hv, _, i, hb⟩ := first_frame false
  have h1 : step s (.finish i) = some { s with busy := s.busy.eraseIdx i, done := s.done ++ [⟨⟨0, 0, 0⟩, 0, 0⟩] } := by
    simp only [step, hb, hv, if_true]
  exact ⟨s, _, [.finish i], hr, hi, by simp [Op.work], run_cons.mpr ⟨_, h1, rfl⟩, by simp⟩

/-- **C49.** In the 3D modes a chunk that was unloaded is not requested again from the same camera position as long as the range has not grown by more than a tenth.
(Partial: false for height maps, see `C49_heightmap_reload`.) -/
theorem C49_unload_stable_partial {s s1 s2 s3 : St} {cam : I3} {order : List I3} {j : Job} (hlast : s.chunks.getLast? = some j)
    (hu : step s (.unload cam) = some s1) (hr : Reachable s2) (h2d : s2.height = false) (hrange : s2.range ≤ s.range * 1.1)
    (hreq : step s2 (.request cam order) = some s3) : j.pos ∉ s1.registered ∧ j.pos ∉ s3.pending := by
  simp only [step, hlast] at hu
  split at hu
  · cases hu
  · split at hu
    · next hfar =>
      cases hu
      refine ⟨by simp, fun hin => ?_⟩
      have hw := (((C49_request_exact hr hreq).2.2 _).mp hin).1.2.2
      rw [← reach_eq, h2d] at hw
      simp only [ground, Bool.false_eq_true, if_false] at hw
      have := hr.inv.range.1
      nlinarith
    · cases hu

/-- **C49 is false here.** For height maps the distance that decides about unloading includes the height of the camera, the one that decides about loading does not:
from high above, a chunk right below the camera is unloaded and the same frame requests it again. -/
theorem C49_heightmap_reload {s s1 s2 : St} {cam : I3} {order : List I3} {j : Job} (h : Reachable s) (h2d : s.height = true) (hlast : s.chunks.getLast? = some j)
    (hu : step s (.unload cam) = some s1) (hnear : Wanted true s.range cam j.pos) (hturn : (2 : ℤ) ^ staggerShift s.range ∣ column cam j.pos - s.stagger)
    (hreq : step s1 (.request cam order) = some s2) : j.pos ∈ s2.pending := by
  simp only [step, hlast] at hu
  split at hu
  · cases hu
  · split at hu
    · cases hu
      obtain ⟨_, ho, rfl⟩ := request_spec hreq
      refine ho.1.mem_iff.mpr ((mem_candidates (by simpa using (by linarith [h.inv.range.1] : (0 : ℝ) ≤ s.range))).mpr ⟨?_, by simp, hturn⟩)
      simpa [h2d] using hnear
    · cases hu

/-- Non-vacuity of `C49_heightmap_reload`, and so a run that refutes the property for height maps: the chunk at the origin, with the camera 1000 above it. -/
theorem C49_heightmap_reload_happens : ∃ s s1 s2 j order, Reachable s ∧ s.height = true ∧ s.chunks.getLast? = some j ∧ step s (.unload ⟨0, 1000, 0⟩) = some s1 ∧
    j.pos ∉ s1.registered ∧ step s1 (.request ⟨0, 1000, 0⟩ order) = some s2 ∧ j.pos ∈ s2.pending := by
  obtain ⟨s, hr, hi, hj, hc, hh, hrange⟩ := one_shown true
  have hu : step s (.unload ⟨0, 1000, 0⟩) = some { s with registered := s.registered.filter (· ≠ ⟨0, 0, 0⟩), chunks := [] } := by
    simp only [step, hi.1, hi.2, hc, ne_eq, not_true_eq_false, Bool.false_eq_true, or_self, if_false, List.getLast?_singleton, List.dropLast_singleton]
    rw [if_pos]
    rw [hrange]
    simp only [dist2]
    norm_num
  let s1 : St := { s with registered := s.registered.filter (· ≠ ⟨0, 0, 0⟩), chunks := [], threads := 1 }
  obtain ⟨order, ops, s', h1, _⟩ := frame_exists (s := s1) hi hj (by simp [s1]) ⟨0, 1000, 0⟩
  have hreq : step { s with registered := s.registered.filter (· ≠ ⟨0, 0, 0⟩), chunks := [] } (.request ⟨0, 1000, 0⟩ order) =
      some { s with registered := s.registered.filter (· ≠ ⟨0, 0, 0⟩), chunks := [], pending := order, stagger := s.stagger + 1 } := by
    simp only [step, hi.1, hi.2, ne_eq, not_true_eq_false, Bool.false_eq_true, or_self, if_false]
    rw [if_pos h1]
  have hlast : s.chunks.getLast? = some ⟨⟨0, 0, 0⟩, 0, 0⟩ := by rw [hc]; rfl
  refine ⟨s, _, _, _, order, hr, hh, hlast, hu, by simp, hreq, ?_⟩
  refine C49_heightmap_reload hr hh hlast hu ⟨⟨dvd_zero _, dvd_zero _, dvd_zero _⟩, fun _ => rfl, ?_⟩ ?_ hreq
  · rw [hrange]; simp [reach]
  · rw [hrange, shift_300]; simp

/-- The point lies within `r` of the camera (which is half a chunk away from `cam`). -/
def Within (r : ℝ) (cam : I3) (p : V3) : Prop := (p.x - (cam.x + 64)) ^ 2 + (p.y - (cam.y + 64)) ^ 2 + (p.z - (cam.z + 64)) ^ 2 ≤ r ^ 2

theorem shift_bound {A a b c d e f : ℝ} (hA : 0 ≤ A) (h : a ^ 2 + b ^ 2 + c ^ 2 ≤ A ^ 2) (hd : |d| ≤ 65) (he : |e| ≤ 65) (hf : |f| ≤ 65) :
    (a + d) ^ 2 + (b + e) ^ 2 + (c + f) ^ 2 ≤ (A + 113) ^ 2 := by
  have sq65 : ∀ t : ℝ, |t| ≤ 65 → t ^ 2 ≤ 65 ^ 2 := fun t ht => by rw [← sq_abs t]; nlinarith [abs_nonneg t]
  have hd := sq65 d hd
  have he := sq65 e he
  have hf := sq65 f hf
  have hcs : (a * d + b * e + c * f) ^ 2 ≤ (a ^ 2 + b ^ 2 + c ^ 2) * (d ^ 2 + e ^ 2 + f ^ 2) := by
    nlinarith [sq_nonneg (a * e - b * d), sq_nonneg (a * f - c * d), sq_nonneg (b * f - c * e)]
  have hcs2 : (a * d + b * e + c * f) ^ 2 ≤ (113 * A) ^ 2 := by
    refine hcs.trans ?_
    have : d ^ 2 + e ^ 2 + f ^ 2 ≤ 113 ^ 2 := by linarith
    have h0 : 0 ≤ a ^ 2 + b ^ 2 + c ^ 2 := by positivity
    calc (a ^ 2 + b ^ 2 + c ^ 2) * (d ^ 2 + e ^ 2 + f ^ 2) ≤ A ^ 2 * 113 ^ 2 := mul_le_mul h this (by positivity) (by positivity)
      _ = (113 * A) ^ 2 := by ring
  have := le_of_abs_le (abs_le_of_sq_le_sq hcs2 (by positivity))
  nlinarith

theorem near_wanted {r : ℝ} (hr : 113 ≤ r) {cam v : I3} {p : V3} (hp : Within (r - 113) cam p) (hc : Close v p) :
    ∃ c, Wanted false r cam c ∧ InChunk 128 c v := by
  refine ⟨⟨128 * (v.x / 128), 128 * (v.y / 128), 128 * (v.z / 128)⟩, ⟨⟨⟨_, rfl⟩, ⟨_, rfl⟩, ⟨_, rfl⟩⟩, by simp, ?_⟩, ?_⟩
  · have off : ∀ (w : ℤ) (q : ℝ), |(w : ℝ) - q| ≤ 1 → |((128 * (w / 128) : ℤ) : ℝ) + 64 - q| ≤ 65 := by
      intro w q hq
      have h1 : 128 * (w / 128) ≤ w := by omega
      have h2 : w ≤ 128 * (w / 128) + 127 := by omega
      have h1' : ((128 * (w / 128) : ℤ) : ℝ) ≤ w := by exact_mod_cast h1
      have h2' : (w : ℝ) ≤ ((128 * (w / 128) : ℤ) : ℝ) + 127 := by exact_mod_cast h2
      rw [abs_le] at hq ⊢
      constructor <;> linarith [hq.1, hq.2]
    have := shift_bound (by linarith : 0 ≤ r - 113) hp (off _ _ hc.1) (off _ _ hc.2.1) (off _ _ hc.2.2)
    simp only [reach, Bool.false_eq_true, if_false]
    push_cast at this ⊢
    nlinarith
  · simp only [InChunk]
    refine ⟨?_, ?_, ?_⟩ <;> omega

/-- **C49.** The 3D preview is complete around the camera: once every chunk within the load range is shown, its surfaces have no cracks or holes at distances up to
the load range minus 113 (smooth meshes). -/
theorem C49_view_complete {s : St} (h : Reachable s) {cam : I3} (b : Build) (hsize : b.size = 128) (hshown : ∀ p, Wanted false s.range cam p → p ∈ s.chunks.map Job.pos)
    {meshes : List (List (V3 × ℝ) × List Nat)} (hbuilt : List.Forall₂ (fun c m => buildDmc { b with pos := c } = some m) (s.chunks.map Job.pos) meshes)
    (p q : V3) (hp : Within (s.range - 113) cam p) :
    (open Classical in (worldEdges meshes).count (p, q)) = (open Classical in (worldEdges meshes).count (q, p)) := by
  refine C46_no_cracks b (by rw [hsize]; exact (C49_shown_apart h).2) hbuilt p q fun v a _ hc => ?_
  obtain ⟨c, hw, hi⟩ := near_wanted (by linarith [h.inv.range.1]) hp hc
  exact ⟨c, hshown c hw, by rw [hsize]; exact hi⟩

/-- **C49.** The same for block meshes. -/
theorem C49_view_complete_blocks {s : St} (h : Reachable s) {cam : I3} (b : Build) (hsize : b.size = 128)
    (hshown : ∀ p, Wanted false s.range cam p → p ∈ s.chunks.map Job.pos)
    {meshes : List (List (V3 × ℝ) × List Nat)} (hbuilt : List.Forall₂ (fun c m => buildBloxel { b with pos := c } = some m) (s.chunks.map Job.pos) meshes)
    (p q : V3) (hp : Within (s.range - 113) cam p) :
    (open Classical in (worldEdges meshes).count (p, q)) = (open Classical in (worldEdges meshes).count (q, p)) := by
  refine C47_no_cracks b (by rw [hsize]; exact (C49_shown_apart h).2) hbuilt p q fun j _ hc => ?_
  obtain ⟨c, hw, hi⟩ := near_wanted (by linarith [h.inv.range.1]) hp hc
  exact ⟨c, hshown c hw, by rw [hsize]; exact hi⟩

/-- **C49.** The same for height maps, for horizontal distances: the height map has no cracks or holes. -/
theorem C49_view_complete_height {s : St} (h : Reachable s) (hh : s.height = true) {cam : I3} (b : HBuild) (hsize : b.size = 128)
    (hshown : ∀ p, Wanted true s.range cam p → p ∈ s.chunks.map Job.pos)
    {meshes : List (List (V3 × ℝ) × List Nat)}
    (hbuilt : List.Forall₂ (fun c m => buildHeight { b with posX := c.1, posZ := c.2 } = some m) (s.chunks.map fun j => (j.pos.x, j.pos.z)) meshes)
    (p q : V3) (hp : (p.x - (cam.x + 64)) ^ 2 + (p.z - (cam.z + 64)) ^ 2 ≤ (s.range - 113) ^ 2) :
    (open Classical in (worldEdges meshes).count (p, q)) = (open Classical in (worldEdges meshes).count (q, p)) := by
  obtain ⟨hg, hap⟩ := C49_shown_apart h
  have hflat : ∀ j ∈ s.chunks, j.pos.y = 0 := by
    intro j hj
    cases hd : s.draining with
    | true => rw [(h.inv.drain hd).2.1] at hj; cases hj
    | false =>
      refine (h.flat hh).1 _ ((C49_each_chunk_once h hd).2.mem_iff.mp ?_)
      simp only [live, List.mem_append]
      exact Or.inl (Or.inl (Or.inl (List.mem_map_of_mem hj)))
  refine C48_no_cracks b ?_ hbuilt p q fun u h1 h2 => ?_
  · unfold TilesApart
    unfold Apart at hap
    rw [List.pairwise_map] at hap ⊢
    refine hap.imp_of_mem ?_
    intro j j' hj hj' hn u ⟨i1, i2⟩
    rw [hsize] at i1 i2
    refine hn ⟨u.1, 0, u.2⟩ ⟨⟨i1.1, ?_, i1.2⟩, ⟨i2.1, ?_, i2.2⟩⟩
    · simp [hflat j hj]
    · simp [hflat j' hj']
  · obtain ⟨c, hw, hi⟩ := near_wanted (r := s.range) (cam := ⟨cam.x, 0, cam.z⟩) (v := ⟨u.1, 64, u.2⟩) (p := ⟨p.x, 64, p.z⟩) (by linarith [h.inv.range.1])
      (by simp only [Within]; push_cast; nlinarith) ⟨h1, by simp, h2⟩
    have hc0 : c.y = 0 := by
      obtain ⟨k, hk⟩ := hw.1.2.1
      have := hi.2.1
      simp only at this
      omega
    have hw' : Wanted true s.range cam c := ⟨hw.1, fun _ => hc0, by simpa [reach] using hw.2.2⟩
    obtain ⟨j, hj, hjc⟩ := List.mem_map.mp (hshown c hw')
    refine ⟨(c.x, c.z), List.mem_map.mpr ⟨j, hj, by rw [hjc]⟩, ?_⟩
    rw [hsize]
    exact ⟨hi.1, hi.2.2⟩

theorem work_exists (n : Nat) {s : St} (hn : 3 * s.jobs.length + 2 * s.busy.length + s.done.length ≤ n) :
    ∃ ops s', (∀ op ∈ ops, op.work = true) ∧ run s ops = some s' ∧ ∀ op, op.work = true → step s' op = none := by
  induction n generalizing s with
  | zero =>
    refine ⟨[], s, by simp, rfl, fun op ho => ?_⟩
    by_contra hc
    obtain ⟨s1, h1⟩ := Option.ne_none_iff_exists'.mp hc
    have := (work_step ho h1).1
    omega
  | succ n ih =>
    by_cases hex : ∃ op, op.work = true ∧ step s op ≠ none
    · obtain ⟨op, ho, hc⟩ := hex
      obtain ⟨s1, h1⟩ := Option.ne_none_iff_exists'.mp hc
      have := (work_step ho h1).1
      obtain ⟨ops, s', i1, i2, i3⟩ := ih (s := s1) (by omega)
      exact ⟨op :: ops, s', fun o h => (List.mem_cons.mp h).elim (fun e => e ▸ ho) (i1 o), run_cons.mpr ⟨s1, h1, i2⟩, i3⟩
    · push Not at hex
      exact ⟨[], s, by simp, rfl, hex⟩

/-- Non-vacuity: a fresh preview with the camera at rest gets to a state in which every chunk within the load range is shown, in every mode. -/
theorem all_shown (height : Bool) (cam : I3) : ∃ s, Reachable s ∧ s.height = height ∧ s.range = 300 ∧ ∀ p, Wanted height s.range cam p → p ∈ s.chunks.map Job.pos := by
  have frames : ∀ n, ∃ ops s', Steady cam ops ∧ requests ops = n ∧ run { height := height } ops = some s' ∧ Idle s' ∧ s'.jobs = [] ∧ s'.cut = 0 ∧ s'.threads = 2 ∧
      s'.height = height ∧ s'.range = 300 ∧ s'.gen = 0 := by
    intro n
    induction n with
    | zero => exact ⟨[], _, by simp [Steady], rfl, rfl, ⟨rfl, rfl⟩, rfl, rfl, rfl, rfl, rfl, rfl⟩
    | succ n ih =>
      obtain ⟨ops, s1, a1, a2, a3, a4, a5, a6, a7, a8, a9, a10⟩ := ih
      obtain ⟨order, ops', s2, _, b2, b3, b4, _⟩ := frame_exists a4 a5 (by rw [a7]; norm_num) cam
      have hreq : ∀ l l' : List Op, requests (l ++ l') = requests l + requests l' := by
        intro l l'
        induction l with
        | nil => simp [requests]
        | cons o l il => rw [List.cons_append, requests_cons, il, requests_cons o l]; omega
      have hq : ∀ l : List Op, (∀ op ∈ l, op.quiet = true) → requests l = 0 := by
        intro l
        induction l with
        | nil => intro _; rfl
        | cons o l il =>
          intro hl
          have := hl o (by simp)
          rw [requests_cons, il fun x hx => hl x (by simp [hx])]
          cases o <;> first | (simp [Op.quiet] at this; done) | simp [requests]
      refine ⟨ops ++ .request cam order :: ops', s2, ?_, ?_, run_append.mpr ⟨s1, a3, b3⟩, ?_, ?_, ?_, ?_, ?_, ?_, ?_⟩
      · intro op hop
        rcases List.mem_append.mp hop with hop | hop
        · exact a1 op hop
        · rcases List.mem_cons.mp hop with rfl | hop
          · rfl
          · have := b2 op hop
            cases op <;> first | (simp [Op.quiet] at this; done) | trivial
      · rw [hreq, requests_cons, hq ops' b2, a2]; simp [requests]
      · rw [b4]; exact a4
      all_goals (rw [b4]; assumption)
  obtain ⟨ops, s1, a1, a2, a3, a4, a5, a6, a7, a8, a9, a10⟩ := frames 32
  have hr1 : Reachable s1 := ⟨height, 2, ops, a3, by rw [a10]; norm_num⟩
  have hcov : ∀ p, Wanted height 300 cam p → p ∈ s1.registered := fun p hw =>
    C49_coverage (reachable_init height 2) a1 a3 a4.2 a6 (by omega) hw
  obtain ⟨ops2, s2, w1, w2, w3⟩ := work_exists _ (s := s1) le_rfl
  obtain ⟨_, hfin⟩ := C49_progress hr1 a4 w1 w2
  obtain ⟨f1, f2⟩ := hfin w3
  have hkeep : ∀ (ops : List Op) (s : St), (∀ op ∈ ops, op.work = true) → run s ops = some s2 → s2.height = s.height ∧ s2.range = s.range ∧ s2.gen = s.gen := by
    intro ops
    induction ops with
    | nil => intro s _ h; cases h; exact ⟨rfl, rfl, rfl⟩
    | cons o l il =>
      intro s hl h
      obtain ⟨t, h1, h2⟩ := run_cons.mp h
      obtain ⟨i1, i2, i3⟩ := il t (fun x hx => hl x (by simp [hx])) h2
      have ho := hl o (by simp)
      have : t.height = s.height ∧ t.range = s.range ∧ t.gen = s.gen := by
        cases o with
        | take | finish | consume =>
          simp only [step] at h1
          repeat' split at h1
          all_goals first
            | (cases h1; done)
            | (cases h1; exact ⟨rfl, rfl, rfl⟩)
        | _ => simp [Op.work] at ho
      exact ⟨i1.trans this.1, i2.trans this.2.1, i3.trans this.2.2⟩
  obtain ⟨k1, k2, k3⟩ := hkeep ops2 s1 w1 w2
  refine ⟨s2, hr1.run w2 (by rw [k3, a10]; norm_num), k1.trans a8, k2.trans a9, fun p hw => f2.mem_iff.mpr ?_⟩
  rw [f1]
  rw [k2, a9] at hw
  exact hcov p hw

/-- Non-vacuity of `C49_view_complete`: a ball shown by a fresh preview; the point (0, 0, 1) is within the guaranteed distance of the camera. -/
example : ∃ s meshes, Reachable s ∧ (∀ p, Wanted false s.range ⟨0, 0, 0⟩ p → p ∈ s.chunks.map Job.pos) ∧
    List.Forall₂ (fun c m => buildDmc { ball with size := 128, pos := c } = some m) (s.chunks.map Job.pos) meshes ∧ Within (s.range - 113) ⟨0, 0, 0⟩ ⟨0, 0, 1⟩ := by
  obtain ⟨s, h1, _, h2, h3⟩ := all_shown false ⟨0, 0, 0⟩
  obtain ⟨ms, hm⟩ := built_of { ball with size := 128 } (s.chunks.map Job.pos)
  refine ⟨s, ms, h1, h3, hm, ?_⟩
  rw [h2]
  simp only [Within]
  norm_num

end FastNoise.Chunks
