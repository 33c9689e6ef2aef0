import Verif.RefCountInv

/-! # C13: a node lives exactly as long as something references it

`N` pointer variables and `T` threads, both arbitrary with `N + T < 2^32` (the counter is 32 bits wide).  `Reach s`: `s` is the
result of any interleaving of any legal operations.  Vocabulary (`pointers`, `refs`, `quiet`, `useCount`, `legal`) is defined in
`RefCount.lean`. -/

namespace FastNoise.RefCount

variable {N T : Nat}

/-- No operation a correct client performs, in any interleaving, touches a destroyed node or a vanished variable. -/
theorem C13_no_use_after_free (hB : N + T < 2 ^ 32) (s : St N T) (h : Reach s) (t : Fin T) (a : Act N T) (hl : legal s t a) :
    exec s t a ≠ none := by
  obtain ⟨s', h1, -⟩ := inv_step hB (reach_inv (b := True) hB h) t a hl
  rw [h1]; simp

/-- A node is alive exactly while something references it. -/
theorem C13_alive_iff_referenced (hB : N + T < 2 ^ 32) (s : St N T) (h : Reach s) (o : Obj) :
    s.life o = .live ↔ 0 < refs s o := by
  have hc := (reach_inv (b := True) hB h).counts o
  constructor
  · exact fun hl => (hc.1 hl).2 trivial
  · intro hp
    refine Decidable.byContradiction fun hl => ?_
    have := hc.2 hl
    omega

/-- The destructor is entered precisely in the step in which the last reference goes. -/
theorem C13_destroyed_when_last_reference_goes (hB : N + T < 2 ^ 32) (s s' : St N T) (h : Reach s) (t : Fin T) (a : Act N T)
    (hl : legal s t a) (he : exec s t a = some s') (o : Obj) :
    (s.life o = .live ∧ s'.life o ≠ .live) ↔ (0 < refs s o ∧ refs s' o = 0) := by
  have h1 := C13_alive_iff_referenced hB s h o
  have h2 := C13_alive_iff_referenced hB s' (Reach.step t a h hl he) o
  rw [← h1]
  constructor
  · rintro ⟨a, b⟩
    exact ⟨a, by rw [Ne, h2] at b; omega⟩
  · rintro ⟨a, b⟩
    exact ⟨a, fun hx => by rw [h2] at hx; omega⟩

/-- Order of the stages of a node's life. -/
def Life.stage : Life → Nat
  | .unborn => 0 | .live => 1 | .dying => 2 | .freed => 3

theorem release_stage {s s' : St N T} {t : Fin T} {d : Fin N} (h : release s t d = some s') (o : Obj) :
    s'.life o = s.life o ∨ (s.life o = .live ∧ s'.life o = .dying) := by
  obtain ⟨-, -, -, -, -, h5⟩ := release_shape h
  rcases h5 with ⟨-, rfl⟩ | ⟨q, hp, hl, -, h5⟩
  · exact Or.inl rfl
  · rcases h5 with ⟨-, h5, -⟩ | ⟨-, h5, -⟩
    · rw [h5]; exact Or.inl rfl
    · rw [h5]
      by_cases e : o = q
      · subst e; exact Or.inr ⟨hl, by simp⟩
      · exact Or.inl (by rw [Function.update_of_ne e])

theorem tryInc_life {s s' : St N T} {p} (h : tryInc s p = some s') : s'.life = s.life := (tryInc_shape h).2.2.2.2.1

/-- A node is constructed, destroyed and freed at most once, in that order: in every step its stage stays or advances by one;
it becomes alive only by `new`. -/
theorem C13_at_most_once (s s' : St N T) (t : Fin T) (a : Act N T) (hl : legal s t a)
    (he : exec s t a = some s') (o : Obj) :
    s'.life o = s.life o ∨
    (s.life o = .unborn ∧ s'.life o = .live ∧ ∃ d ms, a = .new d o ms) ∨
    (s.life o = .live ∧ s'.life o = .dying) ∨
    (s.life o = .dying ∧ s'.life o = .freed) := by
  have rel : ∀ {u u' : St N T} {d}, release u t d = some u' → u.life = s.life → s'  = u' →
      s'.life o = s.life o ∨ (s.life o = .unborn ∧ s'.life o = .live ∧ ∃ d ms, a = .new d o ms) ∨
      (s.life o = .live ∧ s'.life o = .dying) ∨ (s.life o = .dying ∧ s'.life o = .freed) := by
    rintro u u' d h hu rfl
    have := release_stage h o
    rw [hu] at this
    rcases this with h | h
    · exact Or.inl h
    · exact Or.inr (Or.inr (Or.inl h))
  cases a with
  | declare d => cases he; exact Or.inl rfl
  | new d q ms =>
    simp only [exec, Option.some.injEq] at he
    subst he
    by_cases e : o = q
    · subst e
      exact Or.inr (Or.inl ⟨hl.2.2.1, by simp, d, ms, rfl⟩)
    · exact Or.inl (by simp [Function.update_of_ne e])
  | copyCtor d x pin =>
    simp only [exec] at he
    split at he
    · cases he
    · left; rw [tryInc_life he]; rfl
  | moveCtor d x =>
    simp only [exec] at he
    split at he
    · cases he
    · cases he; exact Or.inl rfl
  | copyAssign d x pin =>
    simp only [exec] at he
    split at he
    · cases he
    · split at he
      · cases he; exact Or.inl rfl
      · left; rw [tryInc_life he]; rfl
  | swapAssign d x =>
    simp only [exec] at he
    split at he
    · cases he
    · cases he; exact Or.inl rfl
  | takeAssign d x =>
    simp only [exec] at he
    split at he
    · cases he
    · split at he
      · cases he; exact Or.inl rfl
      · exact rel he rfl rfl
  | destroy d => exact rel he rfl rfl
  | use h =>
    simp only [exec] at he
    split at he
    · cases he
    · split at he
      · cases he
      · split at he
        · cases he; exact Or.inl rfl
        · cases he
  | give d u => cases he; exact Or.inl rfl
  | run =>
    simp only [exec, run] at he
    split at he
    · next q rest _ =>
      split at he
      · next hdy =>
        cases he
        by_cases e : o = q
        · subst e; exact Or.inr (Or.inr (Or.inr ⟨hdy, by simp [freeObj_life]⟩))
        · exact Or.inl (by simp [freeObj_life, Function.update_of_ne e])
      · cases he
    · exact rel he rfl rfl
    · split at he
      · cases he; exact Or.inl rfl
      · exact rel he rfl rfl
      · split at he
        · cases he
        · cases he; exact Or.inl rfl
      · split at he
        · cases he
        · cases he; exact Or.inl rfl
      · cases he; exact Or.inl rfl

theorem holds_quiet {s : St N T} (hq : quiet s) (o : Obj) : refs s o = pointers s o := by
  unfold refs
  have : ∑ t : Fin T, (s.thr t).todo.holds o = 0 := Finset.sum_eq_zero fun t _ => by rw [(hq t).2]; rfl
  omega

/-- When no operation is in progress: `use_count()` is the number of handles pointing to the node. -/
theorem C13_use_count (hB : N + T < 2 ^ 32) (s : St N T) (h : Reach s) (hq : quiet s) (o : Obj) (d : Fin N)
    (hd : s.ptr d = some o) : useCount s o = pointers s o := by
  have hI := reach_inv (b := True) hB h
  have := (hI.counts o).1 (hI.counts.live hd)
  rw [← holds_quiet hq]; exact this.1

/-- When no operation is in progress: nodes somebody points to are alive; all others that were ever created are completely
destroyed and freed. -/
theorem C13_quiet_no_leak (hB : N + T < 2 ^ 32) (s : St N T) (h : Reach s) (hq : quiet s) (o : Obj) :
    ((∃ d, s.ptr d = some o) → s.life o = .live) ∧
    ((∀ d, s.ptr d ≠ some o) → s.life o = .unborn ∨ s.life o = .freed) := by
  have hI := reach_inv (b := True) hB h
  refine ⟨fun ⟨d, hd⟩ => hI.counts.live hd, fun hn => ?_⟩
  have h0 : refs s o = 0 := by
    rw [holds_quiet hq]
    exact Finset.sum_eq_zero fun d _ => if_neg (hn d)
  have h1 : s.life o ≠ .live := fun hl => by have := ((hI.counts o).1 hl).2 trivial; omega
  have h2 : s.life o ≠ .dying := by
    intro hd
    have := hI.struct.fr o
    rw [if_pos hd] at this
    have h3 : nfr s o = 0 := Finset.sum_eq_zero fun t _ => by rw [(hq t).1]; rfl
    omega
  cases hl : s.life o <;> simp_all

/-! ### Destruction always completes -/

/-- Amount of unfinished work. -/
def work (s : St N T) : Nat :=
  (N + 4) * (∑ d : Fin N, if s.ptr d = none then 0 else 1) +
  ∑ t : Fin T, (((s.thr t).destr.map fun f => f.2.length + 1).sum +
    match (s.thr t).todo with
    | .idle => 0 | .relAssign .. => N + 6 | .finAssign .. => N + 5 | .finTake .. => 1 | .finEnd .. => 1)

def Thr.work (x : Thr N) : Nat :=
  ((x.destr.map fun f => f.2.length + 1).sum +
    match x.todo with
    | .idle => 0 | .relAssign .. => N + 6 | .finAssign .. => N + 5 | .finTake .. => 1 | .finEnd .. => 1)

def nn (p : Option Obj) : Nat := if p = none then 0 else 1

theorem work_eq (s : St N T) : work s = (N + 4) * (∑ d, nn (s.ptr d)) + ∑ t, (s.thr t).work := rfl

theorem work_upd {s s' : St N T} {t : Fin T} {d : Fin N} {p : Option Obj} {x : Thr N}
    (hp : s'.ptr = Function.update s.ptr d p) (ht : s'.thr = Function.update s.thr t x) :
    work s' + (N + 4) * nn (s.ptr d) + (s.thr t).work = work s + (N + 4) * nn p + x.work := by
  rw [work_eq, work_eq, hp, ht]
  have h1 := sum_upd s.ptr nn d p
  have h2 := sum_upd s.thr Thr.work t x
  have h3 : (N + 4) * (∑ i, nn (Function.update s.ptr d p i)) + (N + 4) * nn (s.ptr d) = (N + 4) * (∑ i, nn (s.ptr i)) + (N + 4) * nn p := by
    rw [← Nat.mul_add, ← Nat.mul_add, h1]
  omega

theorem nodup_len {l : List (Fin N)} (h : l.Nodup) : l.length ≤ N := by
  have := List.Nodup.length_le_card h
  simpa using this

theorem release_work {s s' : St N T} {t : Fin T} {d : Fin N} (hn : ∀ o, s.life o = .live → (s.members o).length ≤ N)
    (h : release s t d = some s') : work s' ≤ work s := by
  obtain ⟨-, h1, -, -, -, h5⟩ := release_shape h
  rcases h5 with ⟨-, rfl⟩ | ⟨q, hp, hl, -, h5⟩
  · exact Nat.le_refl _
  · have e1 : nn (s.ptr d) = 1 := by rw [hp]; rfl
    have e2 : nn none = 0 := rfl
    rcases h5 with ⟨-, -, h5⟩ | ⟨-, -, h5⟩
    · have := work_upd (s := s) (s' := s') (t := t) (x := s.thr t) h1 (by rw [h5]; exact (Function.update_eq_self t s.thr).symm)
      rw [e1, e2] at this
      omega
    · have := work_upd (s := s) (s' := s') h1 h5
      rw [e1, e2] at this
      have e3 : Thr.work { s.thr t with destr := (q, s.members q) :: (s.thr t).destr } = (s.members q).length + 1 + (s.thr t).work := by
        simp [Thr.work, List.sum_cons]; omega
      rw [e3] at this
      have := hn q hl
      omega

theorem run_work {b : Prop} {s s' : St N T} (hI : Inv b s) {t : Fin T} (hi : ¬ s.idle t) (h : run s t = some s') :
    work s' < work s := by
  have hn : ∀ o, s.life o = .live → (s.members o).length ≤ N := fun o ho => nodup_len (hI.struct.memb o ho).1
  unfold run at h
  split at h
  · next o rest hde =>
    split at h
    · cases h
      have := sum_upd s.thr Thr.work t { s.thr t with destr := rest }
      have e : (s.thr t).work = 1 + Thr.work { s.thr t with destr := rest } := by simp [Thr.work, hde, List.sum_cons]; omega
      rw [work_eq, work_eq]
      have e2 : (freeObj s t o rest).thr = Function.update s.thr t { s.thr t with destr := rest } := rfl
      have e3 : (freeObj s t o rest).ptr = s.ptr := rfl
      rw [e2, e3]
      omega
    · cases h
  · next o m ms rest hde =>
    have h1 := release_work (s := s.setDestr t ((o, ms) :: rest)) hn h
    have := sum_upd s.thr Thr.work t { s.thr t with destr := (o, ms) :: rest }
    have e : (s.thr t).work = 1 + Thr.work { s.thr t with destr := (o, ms) :: rest } := by simp [Thr.work, hde, List.sum_cons]; omega
    have e2 : (s.setDestr t ((o, ms) :: rest)).thr = Function.update s.thr t { s.thr t with destr := (o, ms) :: rest } := rfl
    have h2 : work (s.setDestr t ((o, ms) :: rest)) < work s := by
      rw [work_eq, work_eq, e2, setDestr_ptr]; omega
    omega
  · next hde =>
    have htd := hI.struct.todo t
    split at h
    · next htt => exact absurd ⟨hde, htt⟩ hi
    · next d x g pin htt =>
      have h1 := release_work (s := s.setTodo t (.finAssign d x g pin)) hn h
      have := sum_upd s.thr Thr.work t { s.thr t with todo := .finAssign d x g pin }
      have e : (s.thr t).work = 1 + Thr.work { s.thr t with todo := .finAssign d x g pin } := by simp [Thr.work, htt]; omega
      have h2 : work (s.setTodo t (.finAssign d x g pin)) < work s := by
        rw [work_eq, work_eq, setTodo_update, setTodo_ptr]; omega
      omega
    · next d x g pin htt =>
      split at h
      · cases h
      · cases h
        have := work_upd (s := s) (s' := (s.setPtr d (s.ptr x)).setTodo t .idle) (d := d) (t := t) rfl rfl
        have e : (s.thr t).work = N + 5 + Thr.work ⟨(s.thr t).destr, .idle⟩ := by simp [Thr.work, htt]; omega
        have e2 : nn (s.ptr x) ≤ 1 := by unfold nn; split <;> omega
        have e3 : (N + 4) * nn (s.ptr x) ≤ N + 4 := by
          calc (N + 4) * nn (s.ptr x) ≤ (N + 4) * 1 := Nat.mul_le_mul_left _ e2
            _ = N + 4 := by omega
        have e4 : Thr.work { (s.setPtr d (s.ptr x)).thr t with todo := .idle } = Thr.work ⟨(s.thr t).destr, .idle⟩ := rfl
        rw [e4] at this
        omega
    · next d x htt =>
      rw [htt] at htd
      obtain ⟨a1, a2, a3, a5⟩ := htd
      have hd0 : s.ptr d = none := by rcases a5 with h | h <;> [exact h; cases h]
      split at h
      · cases h
      · cases h
        have w1 := work_upd (s := s) (s' := s.setPtr d (s.ptr x)) (d := d) (t := t) (x := s.thr t) rfl (Function.update_eq_self t s.thr).symm
        have w2 := work_upd (s := s.setPtr d (s.ptr x)) (s' := ((s.setPtr d (s.ptr x)).setPtr x none).setTodo t .idle) (d := x) (t := t) rfl rfl
        have e : (s.thr t).work = 1 + Thr.work ⟨(s.thr t).destr, .idle⟩ := by simp [Thr.work, htt]; omega
        rw [setPtr_ptr, Function.update_of_ne a3] at w2
        have e4 : Thr.work { ((s.setPtr d (s.ptr x)).setPtr x none).thr t with todo := .idle } = Thr.work ⟨(s.thr t).destr, .idle⟩ := rfl
        have e5 : ((s.setPtr d (s.ptr x)).thr t).work = (s.thr t).work := rfl
        rw [e4, e5] at w2
        have e2 : nn none = 0 := rfl
        rw [hd0] at w1
        rw [e2] at w1 w2
        omega
    · next d htt =>
      cases h
      have := sum_upd s.thr Thr.work t { s.thr t with todo := .idle }
      have e : (s.thr t).work = 1 + Thr.work { s.thr t with todo := .idle } := by simp [Thr.work, htt]; omega
      have h2 : work ((s.setOwner d .dead).setTodo t .idle) < work s := by
        rw [work_eq, work_eq, setTodo_update, setTodo_ptr, setOwner_ptr, setOwner_thr]; omega
      exact h2

instance (s : St N T) (t : Fin T) : Decidable (s.idle t) := by unfold St.idle; infer_instance

/-- `Runs ts s s'`: busy threads `ts` take one step each, in this order, going on with the operation they are in. -/
inductive Runs : List (Fin T) → St N T → St N T → Prop
  | nil (s) : Runs [] s s
  | cons {t ts s s' s''} : legal s t .run → exec s t .run = some s' → Runs ts s' s'' → Runs (t :: ts) s s''

/-- Operations in progress always come to an end, however deep the chain of destructors they set off and however the threads
are scheduled: only boundedly many steps are possible before all threads are idle. -/
theorem C13_destruction_terminates (hB : N + T < 2 ^ 32) (s : St N T) (h : Reach s) :
    ∃ bound, (∀ ts s', Runs ts s s' → ts.length ≤ bound) ∧
      ∀ ts s', Runs ts s s' → (∀ t, ¬ legal s' t .run) → quiet s' := by
  refine ⟨work s, ?_, ?_⟩
  · intro ts s' hr
    have key : work s' + ts.length ≤ work s := by
      induction hr with
      | nil => simp
      | cons hl he _ ih =>
        have h1 := run_work (reach_inv (b := True) hB h) hl he
        have h2 := ih (Reach.step _ _ h hl he)
        simp only [List.length_cons]; omega
    omega
  · intro ts s' _ hall t
    exact Decidable.byContradiction fun hx => hall t hx

/-! ### Concrete programs (non-vacuity) -/

instance (s : St N T) (d : Fin N) : Decidable (s.untouched d) := by unfold St.untouched; infer_instance
instance (s : St N T) (d : Fin N) : Decidable (s.unwritten d) := by unfold St.unwritten; infer_instance
instance (s : St N T) (d : Fin N) : Decidable (s.isVar d) := by unfold St.isVar; infer_instance
instance (s : St N T) (t : Fin T) (h d : Fin N) : Decidable (s.memberVia t h d) :=
  match hh : s.ptr h with
  | none => isFalse (by rintro ⟨_, o, a, _⟩; rw [hh] at a; cases a)
  | some o => decidable_of_iff (s.owner h = .thr t ∧ s.owner d = .mem o) (by
      constructor
      · rintro ⟨a, b⟩; exact ⟨a, o, hh, b⟩
      · rintro ⟨a, o', b, c⟩; rw [hh] at b; cases b; exact ⟨a, c⟩)
instance (s : St N T) (t : Fin T) (a : Act N T) : Decidable (legal s t a) := by
  cases a <;> (try rename_i p; cases p) <;> (unfold legal; infer_instance)

/-- Run a schedule of (thread, operation) pairs, stopping if the client breaks a rule or at undefined behaviour. -/
def play (s : St N T) : List (Fin T × Act N T) → Option (St N T)
  | [] => some s
  | (t, a) :: r => if legal s t a then (exec s t a).bind fun s' => play s' r else none

theorem play_reach {s s' : St N T} (h : Reach s) : ∀ {l}, play s l = some s' → Reach s' := by
  intro l
  induction l generalizing s with
  | nil => intro hp; cases hp; exact h
  | cons p r ih =>
    obtain ⟨t, a⟩ := p
    intro hp
    simp only [play] at hp
    split at hp
    · next hl =>
      cases he : exec s t a with
      | none => rw [he] at hp; cases hp
      | some u => rw [he] at hp; exact ih (Reach.step t a h hl he) hp
    · cases hp

/-- Thread 0 builds node 0 (member variable 2) with source node 1, copies the handle for thread 1 and drops its own handles;
thread 1 then drops the copy, which destroys both nodes. -/
def demo : List (Fin 2 × Act 5 2) :=
  [(0, .new 0 0 [2]), (0, .new 1 1 []), (0, .copyAssign 2 1 (some 0)), (0, .run), (0, .run),
   (0, .copyCtor 3 0 none), (0, .give 3 1), (0, .destroy 0), (1, .use 3), (0, .run), (0, .destroy 1), (0, .run)]

def demoEnd : List (Fin 2 × Act 5 2) := [(1, .destroy 3), (1, .run), (1, .run), (1, .run), (1, .run)]

def lifeAfter (l : List (Fin 2 × Act 5 2)) (o : Obj) : Option Life := (play St.init l).map (·.life o)

example : lifeAfter demo 0 = some .live ∧ lifeAfter demo 1 = some .live := by decide
example : (play St.init demo).map (fun s : St 5 2 => (useCount s 0, useCount s 1, decide (s.idle 0), decide (s.idle 1))) = some (1, 1, true, true) := by decide
example : lifeAfter (demo ++ demoEnd) 0 = some .freed ∧ lifeAfter (demo ++ demoEnd) 1 = some .freed := by decide
/-- Hypotheses of the theorems are met by a state in the middle of a destructor. -/
example : ∃ s : St 5 2, Reach s ∧ s.life 0 = .dying ∧ ¬ s.idle 1 ∧ refs s 1 = 1 := by
  have h : ((play (St.init : St 5 2) (demo ++ [(1, .destroy 3)])).isSome) = true := by decide
  obtain ⟨s, hs⟩ := Option.isSome_iff_exists.mp h
  have h1 : (play (St.init : St 5 2) (demo ++ [(1, .destroy 3)])).map (fun s => (s.life 0, decide (s.idle 1), refs s 1)) = some (.dying, false, 1) := by decide
  rw [hs] at h1
  simp only [Option.map_some, Option.some.injEq, Prod.mk.injEq, decide_eq_false_iff_not] at h1
  exact ⟨s, play_reach .init hs, h1.1, h1.2.1, h1.2.2⟩

/-! ### What the guarantees do not cover -/

/-- Cycles are never collected: a node that is its own source stays alive although no variable of the program refers to it. -/
theorem C13_cycle_leaks : ∃ s : St 2 1, Reach s ∧ quiet s ∧ s.life 0 = .live ∧ ∀ d t, s.owner d ≠ .thr t := by
  have h : (play (St.init : St 2 1) [(0, .new 0 0 [1]), (0, .copyAssign 1 0 (some 0)), (0, .run), (0, .run), (0, .destroy 0), (0, .run)]).isSome = true := by
    decide
  obtain ⟨s, hs⟩ := Option.isSome_iff_exists.mp h
  have h1 : (play (St.init : St 2 1) [(0, .new 0 0 [1]), (0, .copyAssign 1 0 (some 0)), (0, .run), (0, .run), (0, .destroy 0), (0, .run)]).map
      (fun s => (decide (∀ t, s.idle t), s.life 0, decide (∀ d t, s.owner d ≠ .thr t))) = some (true, .live, true) := by decide
  rw [hs] at h1
  simp only [Option.map_some, Option.some.injEq, Prod.mk.injEq, decide_eq_true_eq] at h1
  exact ⟨s, play_reach .init hs, h1.1, h1.2.1, h1.2.2⟩

/-- Why the source of a copy assignment must not be a member of the node being let go (`p = p->mSource`, SmartNode.h:157-180):
the assignment reads `node.mPtr` again after `Release()`, when the member's memory is already gone. -/
theorem C13_assign_from_own_member_is_use_after_free :
    ∃ s0 s1 s2 s3 s4 : St 3 1, Reach s0 ∧ quiet s0 ∧ s0.ptr 0 = some 0 ∧ s0.owner 2 = .mem 0 ∧
      exec s0 0 (.copyAssign 0 2 none) = some s1 ∧ run s1 0 = some s2 ∧ run s2 0 = some s3 ∧ run s3 0 = some s4 ∧
      run s4 0 = none := by
  have h : (play (St.init : St 3 1) [(0, .new 0 0 [2]), (0, .new 1 1 []), (0, .copyAssign 2 1 (some 0)), (0, .run), (0, .run)]).isSome = true := by
    decide
  obtain ⟨s, hs⟩ := Option.isSome_iff_exists.mp h
  have h1 : (play (St.init : St 3 1) [(0, .new 0 0 [2]), (0, .new 1 1 []), (0, .copyAssign 2 1 (some 0)), (0, .run), (0, .run)]).map
      (fun s => (decide (∀ t, s.idle t), s.ptr 0, s.owner 2, ((exec s 0 (.copyAssign 0 2 none)).bind fun s1 => (run s1 0).bind fun s2 => (run s2 0).bind fun s3 => (run s3 0).map fun s4 => (run s4 0).isNone))) = some (true, some 0, .mem 0, some true) := by decide
  rw [hs] at h1
  simp only [Option.map_some, Option.some.injEq, Prod.mk.injEq, decide_eq_true_eq] at h1
  obtain ⟨a, b, c, d⟩ := h1
  cases e1 : exec s 0 (.copyAssign 0 2 none) with
  | none => rw [e1] at d; cases d
  | some s1 =>
    rw [e1] at d
    simp only [Option.bind_some] at d
    cases e2 : run s1 0 with
    | none => rw [e2] at d; cases d
    | some s2 =>
      rw [e2] at d
      simp only [Option.bind_some] at d
      cases e3 : run s2 0 with
      | none => rw [e3] at d; cases d
      | some s3 =>
        rw [e3] at d
        simp only [Option.bind_some] at d
        cases e4 : run s3 0 with
        | none => rw [e4] at d; cases d
        | some s4 =>
          rw [e4] at d
          simp only [Option.map_some, Option.some.injEq, Option.isNone_iff_eq_none] at d
          exact ⟨s, s1, s2, s3, s4, play_reach .init hs, a, b, c, e1, e2, e3, e4, d⟩

end FastNoise.RefCount
