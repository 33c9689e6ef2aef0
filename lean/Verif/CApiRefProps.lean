import Verif.CApiRef

/-! # C40: C API handles -/

namespace FastNoise.RefCount

variable {N T : Nat}

theorem inv_deleteRef (hB : N + T < 2 ^ 32) {s : St N T} (hI : Inv False s) (t : Fin T) (d : Fin N)
    (hl : clegal s t (.deleteRef d)) : ∃ s', cexec s t (.deleteRef d) = some s' ∧ Inv False s' := by
  obtain ⟨hi, hd, hud, hp⟩ := hl
  have hC := hI.counts
  have hS := hI.struct
  simp only [cexec]
  rw [if_neg (by rw [hd]; simp)]
  cases hh : s.ptr d with
  | none => exact absurd hh hp
  | some o =>
    have hlv := hC.live hh
    simp only
    rw [if_pos hlv]
    refine ⟨_, rfl, ?_, ?_⟩
    · intro q
      generalize hs' : St.setOwner _ d .dead = s'
      have e1 : s'.ptr = Function.update s.ptr d none := by rw [← hs']; rfl
      have e2 : s'.life = s.life := by rw [← hs']; rfl
      have e3 : s'.cnt = Function.update s.cnt o ((s.cnt o + (2 ^ 32 - 1)) % 2 ^ 32) := by rw [← hs']; rfl
      have e4 : s'.thr = s.thr := by rw [← hs']; rfl
      have hr := refs_setPtr (s := s) (s' := s') d none e1 (fun u x => by rw [e4]) q
      rw [hh] at hr
      have h0 : ind q none = 0 := by simp [ind]
      rw [e2, e3]
      have hb := refs_le s q
      by_cases e : q = o
      · subst e
        have h1 : ind q (some q) = 1 := by simp [ind]
        rw [Function.update_self]
        have := (hC q).1 hlv
        have h2 := this.1
        refine ⟨fun _ => ⟨?_, fun f => f.elim⟩, fun hx => absurd hlv hx⟩
        omega
      · have h1 : ind q (some o) = 0 := by simp [ind]; exact fun h => e h.symm
        rw [Function.update_of_ne e]
        have : refs s' q = refs s q := by omega
        rw [this]; exact hC q
    · refine struct_edit hS rfl rfl rfl [d] ?_ ?_ ?_
      · intro q hq
        simp only [List.mem_singleton] at hq; subst hq
        exact ⟨by simp [hd], by simp, hud⟩
      · intro q hq
        simp only [List.mem_singleton] at hq
        simp [Function.update_of_ne hq]
      · intro q hq
        simp only [List.mem_singleton] at hq; subst hq; simp

theorem cinv_step (hB : N + T < 2 ^ 32) {s : St N T} (hI : Inv False s) (t : Fin T) (a : CAct N T) (hl : clegal s t a) :
    ∃ s', cexec s t a = some s' ∧ Inv False s' := by
  cases a with
  | base a => exact inv_step hB hI t a hl
  | deleteRef d => exact inv_deleteRef hB hI t d hl

theorem creach_inv (hB : N + T < 2 ^ 32) {s : St N T} (h : CReach s) : Inv False s := by
  induction h with
  | init => exact inv_init
  | step t a _ hl he ih =>
    obtain ⟨s', h1, h2⟩ := cinv_step hB ih t a hl
    rw [h1] at he; cases he; exact h2

/-- No sequence or interleaving of correct C API calls touches a destroyed node. -/
theorem C40_no_use_after_free (hB : N + T < 2 ^ 32) (s : St N T) (h : CReach s) (t : Fin T) (a : CAct N T)
    (hl : clegal s t a) : cexec s t a ≠ none := by
  obtain ⟨s', h1, -⟩ := cinv_step hB (creach_inv hB h) t a hl
  rw [h1]; simp

/-- A node stays alive as long as there is a handle to it or another node has it as a source, whether or not handles to it have
been deleted; and its count is then the number of these references. -/
theorem C40_references_keep_alive (hB : N + T < 2 ^ 32) (s : St N T) (h : CReach s) (o : Obj) (d : Fin N) (hd : s.ptr d = some o) :
    s.life o = .live ∧ (quiet s → useCount s o = pointers s o) := by
  have hI := creach_inv hB h
  have hl := hI.counts.live hd
  refine ⟨hl, fun hq => ?_⟩
  have := ((hI.counts o).1 hl).1
  rw [← holds_quiet hq]; exact this

/-- `fnNew...` gives the caller exactly one reference to a new node and leaves nothing else behind. -/
theorem C40_new_gives_one_reference (s : St N T) (t : Fin T) (tmp h : Fin N) (o : Obj) (ms : List (Fin N)) (hth : tmp ≠ h)
    (hi : s.idle t) :
    ∃ s', execs s t (fnNew tmp h o ms) = some s' ∧ s'.life o = .live ∧ useCount s' o = 1 ∧ s'.ptr h = some o ∧
      s'.owner h = .thr t ∧ s'.owner tmp = .dead ∧ s'.idle t ∧
      (∀ d, d ≠ tmp → d ≠ h → d ∉ ms → s'.ptr d = s.ptr d ∧ s'.owner d = s.owner d) ∧
      (∀ q, q ≠ o → s'.life q = s.life q ∧ useCount s' q = useCount s q) := by
  obtain ⟨hi1, hi2⟩ := hi
  have hht : h ≠ tmp := Ne.symm hth
  simp only [fnNew, execs, exec, Option.bind_some, if_true, St.setOwner, St.setPtr, tryInc, reduceCtorEq, if_false]
  simp only [release, St.setTodo, Function.update_self, Function.update_of_ne hth, if_true, reduceCtorEq, if_false, Nat.reduceAdd,
    Nat.reduceMod, Nat.reducePow, Nat.reduceSub, OfNat.ofNat_ne_one, Option.bind_some, Nat.reduceMod, run, hi1]
  refine ⟨_, rfl, ?_⟩
  refine ⟨by simp, by simp [useCount], by simp [hht], by simp [hht], by simp, by simp [St.idle], ?_, ?_⟩
  · intro d a b c
    simp [a, b, c]
  · intro q hq
    simp [useCount, hq]

/-- A node without references can never again be referenced, used or destroyed. -/
theorem unref_step {s s' : St N T} (hB : N + T < 2 ^ 32) (hI : Inv False s) {t : Fin T} {a : CAct N T} (hl : clegal s t a)
    (he : cexec s t a = some s') {o : Obj} (hlv : s.life o = .live) (h0 : refs s o = 0) : s'.life o = .live ∧ refs s' o = 0 := by
  have hI' : Inv False s' := by
    obtain ⟨u, h1, h2⟩ := cinv_step hB hI t a hl
    rw [h1] at he; cases he; exact h2
  have hp : ∀ d, s.ptr d ≠ some o := fun d hd => by have := ind_pos_le s d o hd; omega
  have hh : ∀ u, (s.thr u).todo.holds o = 0 := fun u => by
    refine Nat.eq_zero_of_not_pos fun hx => ?_
    have := holds_pos s u o hx; omega
  have fin : ∀ u : St N T, (∀ d, u.ptr d ≠ some o) → (∀ v, (u.thr v).todo.holds o = 0) → refs u o = 0 := by
    intro u h1 h2
    unfold refs pointers
    rw [Finset.sum_eq_zero fun d _ => if_neg (h1 d), Finset.sum_eq_zero fun v _ => h2 v]; rfl
  have hup : ∀ (f : Fin N → Option Obj) (d : Fin N) (p : Option Obj), (∀ x, f x ≠ some o) → p ≠ some o → ∀ x, Function.update f d p x ≠ some o := by
    intro f d p h1 h2 x
    by_cases e : x = d
    · subst e; simpa using h2
    · rw [Function.update_of_ne e]; exact h1 x
  have hrel : ∀ {u u' : St N T} {d : Fin N}, release u t d = some u' → u.ptr = s.ptr → u.life = s.life →
      (∀ v, (u.thr v).todo.holds o = 0) → u'.life o = .live ∧ refs u' o = 0 := by
    intro u u' d hr e1 e2 e3
    obtain ⟨-, h1, -, -, h4, h5⟩ := release_shape hr
    refine ⟨?_, fin u' ?_ ?_⟩
    · rcases h5 with ⟨-, rfl⟩ | ⟨q, hq, -, -, h5⟩
      · rw [e2]; exact hlv
      · rcases h5 with ⟨-, h5, -⟩ | ⟨-, h5, -⟩
        · rw [h5, e2]; exact hlv
        · have : o ≠ q := by rintro rfl; rw [e1] at hq; exact hp d hq
          rw [h5, Function.update_of_ne this, e2]; exact hlv
    · rw [h1, e1]; exact hup _ d _ hp (by simp)
    · intro v; rw [h4 v]; exact e3 v
  have htodo : ∀ (x : Todo N), x.holds o = 0 → ∀ v, ((s.setTodo t x).thr v).todo.holds o = 0 := by
    intro x hx v
    rw [setTodo_thr]
    split
    · exact hx
    · exact hh v
  cases a with
  | deleteRef d =>
    simp only [cexec] at he
    split at he
    · cases he
    · split at he
      · cases he
      · split at he
        · cases he
          exact ⟨hlv, fin _ (hup _ d _ hp (by simp)) hh⟩
        · cases he
  | base a =>
    simp only [cexec] at he
    cases a with
    | declare d => cases he; exact ⟨hlv, fin _ hp hh⟩
    | new d q ms =>
      simp only [exec, Option.some.injEq] at he
      have hq : o ≠ q := by rintro rfl; have := hl.2.2.1; rw [hlv] at this; cases this
      subst he
      refine ⟨by simp [Function.update_of_ne hq, hlv], fin _ ?_ hh⟩
      intro x
      simp only
      split
      · simpa using hq.symm
      · split
        · simp
        · exact hp x
    | copyCtor d x pin =>
      simp only [exec] at he
      split at he
      · cases he
      · obtain ⟨h1, -, -, h4, h5, -⟩ := tryInc_shape he
        refine ⟨by rw [h5]; exact hlv, fin _ ?_ ?_⟩
        · rw [h1]; exact hup _ d _ hp (hp x)
        · rw [h4]; exact hh
    | moveCtor d x =>
      simp only [exec] at he
      split at he
      · cases he
      · cases he; exact ⟨hlv, fin _ (hup _ x _ (hup _ d _ hp (hp x)) (by simp)) hh⟩
    | copyAssign d x pin =>
      simp only [exec] at he
      split at he
      · cases he
      · split at he
        · cases he; exact ⟨hlv, h0⟩
        · obtain ⟨h1, -, -, h4, h5, -⟩ := tryInc_shape he
          refine ⟨by rw [h5]; exact hlv, fin _ ?_ ?_⟩
          · rw [h1]; exact hp
          · rw [h4]; exact htodo _ (if_neg (hp x))
    | swapAssign d x =>
      simp only [exec] at he
      split at he
      · cases he
      · cases he; exact ⟨hlv, fin _ (hup _ x _ (hup _ d _ hp (hp x)) (hp d)) hh⟩
    | takeAssign d x =>
      simp only [exec] at he
      split at he
      · cases he
      · split at he
        · cases he; exact ⟨hlv, h0⟩
        · exact hrel he rfl rfl (htodo _ rfl)
    | destroy d => exact hrel he rfl rfl (htodo _ rfl)
    | use h =>
      simp only [exec] at he
      split at he
      · cases he
      · split at he
        · cases he
        · split at he
          · cases he; exact ⟨hlv, h0⟩
          · cases he
    | give d u => cases he; exact ⟨hlv, fin _ hp hh⟩
    | run =>
      simp only [exec, run] at he
      split at he
      · next q rest hde =>
        split at he
        · next hdy =>
          cases he
          have : o ≠ q := by rintro rfl; rw [hlv] at hdy; cases hdy
          refine ⟨by rw [freeObj_life, Function.update_of_ne this]; exact hlv, fin _ hp ?_⟩
          intro v; rw [freeObj_todo]; exact hh v
        · cases he
      · exact hrel he rfl rfl (fun v => by rw [setDestr_todo]; exact hh v)
      · have ht := hh t
        split at he
        · cases he; exact ⟨hlv, h0⟩
        · next d x g pin htt => exact hrel he rfl rfl (htodo _ (by rw [htt] at ht; exact ht))
        · next d x g pin htt =>
          split at he
          · cases he
          · cases he
            refine ⟨hlv, fin _ (hup _ d _ hp (hp x)) ?_⟩
            intro v; rw [setTodo_thr]; split
            · rfl
            · exact hh v
        · next d x htt =>
          split at he
          · cases he
          · cases he
            refine ⟨hlv, fin _ (hup _ x _ (hup _ d _ hp (hp x)) (by simp)) ?_⟩
            intro v; rw [setTodo_thr]; split
            · rfl
            · exact hh v
        · cases he
          refine ⟨hlv, fin _ hp ?_⟩
          intro v; rw [setTodo_thr]; split
          · rfl
          · exact hh v

theorem unref_steps (hB : N + T < 2 ^ 32) {s s' : St N T} (h : CReach s) (hst : CSteps s s') {o : Obj}
    (hlv : s.life o = .live) (h0 : refs s o = 0) : s'.life o = .live ∧ refs s' o = 0 ∧ CReach s' := by
  induction hst with
  | refl => exact ⟨hlv, h0, h⟩
  | step t a _ hl he ih =>
    obtain ⟨a1, a2, a3⟩ := ih
    obtain ⟨b1, b2⟩ := unref_step hB (creach_inv hB a3) hl he a1 a2
    exact ⟨b1, b2, CReach.step t a a3 hl he⟩

/-- Deleting the last reference to a node with `fnDeleteNodeRef` leaks it: the node is not destroyed, and whatever the program
does later it never will be (and so the sources it holds are kept alive for ever, too).  The claim "after releasing all handles
nothing leaks" is false of the code: `fnDeleteNodeRef` drops the count by hand and never looks at the result. -/
theorem C40_delete_last_reference_leaks_partial (hB : N + T < 2 ^ 32) (s s1 s2 : St N T) (h : CReach s) (t : Fin T) (d : Fin N) (o : Obj)
    (hl : clegal s t (.deleteRef d)) (hd : s.ptr d = some o) (hlast : refs s o = 1)
    (he : cexec s t (.deleteRef d) = some s1) (hs : CSteps s1 s2) : s2.life o = .live ∧ refs s2 o = 0 := by
  have hI := creach_inv hB h
  have hlv := hI.counts.live hd
  have key : s1.life o = .live ∧ refs s1 o = 0 := by
    simp only [cexec] at he
    rw [if_neg (by rw [hl.2.1]; simp), hd] at he
    simp only [hlv, if_true, Option.some.injEq] at he
    subst he
    refine ⟨hlv, ?_⟩
    generalize hs' : St.setOwner _ d .dead = s'
    have e1 : s'.ptr = Function.update s.ptr d none := by rw [← hs']; rfl
    have e4 : s'.thr = s.thr := by rw [← hs']; rfl
    have hr := refs_setPtr (s := s) (s' := s') d none e1 (fun u x => by rw [e4]) o
    rw [hd] at hr
    have h0 : ind o none = 0 := by simp [ind]
    have h1 : ind o (some o) = 1 := by simp [ind]
    omega
  have := unref_steps hB (CReach.step t _ h hl he) hs key.1 key.2
  exact ⟨this.1, this.2.1⟩

/-! ### Concrete histories -/

theorem reach_creach {s : St N T} (h : Reach s) : CReach s := by
  induction h with
  | init => exact .init
  | step t a _ hl he ih => exact .step t (.base a) ih hl he

def cdemo : List (Fin 1 × Act 4 1) :=
  [(0, .new 0 0 [2]), (0, .copyCtor 1 0 none), (0, .destroy 0), (0, .run)]

/-- Create a node through the C API and delete the reference: the hypotheses of the leak theorem are met. -/
example : ∃ s s1 : St 4 1, CReach s ∧ clegal s 0 (.deleteRef 1) ∧ s.ptr 1 = some 0 ∧ refs s 0 = 1 ∧
    cexec s 0 (.deleteRef 1) = some s1 ∧ s1.life 0 = .live ∧ s1.cnt 0 = 0 := by
  have h : (play (St.init : St 4 1) cdemo).isSome = true := by decide
  obtain ⟨s, hs⟩ := Option.isSome_iff_exists.mp h
  have h1 : (play (St.init : St 4 1) cdemo).map (fun s => (decide (s.idle 0), s.owner 1, decide (s.untouched 1), s.ptr 1, refs s 0)) =
      some (true, .thr 0, true, some 0, 1) := by decide
  have f : (play (St.init : St 4 1) cdemo).map (fun s => (cexec s 0 (.deleteRef 1)).map fun s1 => (s1.life 0, s1.cnt 0)) = some (some (.live, 0)) := by
    decide
  rw [hs] at h1 f
  simp only [Option.map_some, Option.some.injEq, Prod.mk.injEq, decide_eq_true_eq] at h1 f
  obtain ⟨a, b, c, d, e⟩ := h1
  cases hc : cexec s 0 (.deleteRef 1) with
  | none => rw [hc] at f; cases f
  | some s1 =>
    rw [hc] at f
    simp only [Option.map_some, Option.some.injEq, Prod.mk.injEq] at f
    exact ⟨s, s1, reach_creach (play_reach .init hs), ⟨a, b, c, by rw [d]; simp⟩, d, e, hc, f.1, f.2⟩

end FastNoise.RefCount
