import Verif.PoolChain

/-! The allocator's mutex: held exactly during the critical section. -/

namespace FastNoise.Pool

variable {T : Nat}

/-- Specification: the thread is between locking and unlocking the allocator's mutex. -/
def Pc.critical : Pc → Bool
  | .scan _ _ _ locked => locked
  | .cas _ _ _ _ locked => locked
  | _ => false

/-- The holder of the mutex is the one thread in the critical section. -/
def Exclusive (s : St T) : Prop := ∀ t, s.lock = some t ↔ (s.pc t).critical = true

theorem Exclusive.keep {s s' : St T} (h : Exclusive s) (t : Fin T) (c : Pc) (hl : s'.lock = s.lock) (hp : s'.pc = upd s.pc t c)
    (hc : c.critical = (s.pc t).critical) : Exclusive s' := by
  intro u
  rw [hl, hp, h u]
  by_cases e : u = t
  · subst e; rw [upd_self, hc]
  · rw [upd_ne _ _ e]

theorem Exclusive.release {s s' : St T} (h : Exclusive s) (t : Fin T) (c : Pc) (ht : (s.pc t).critical = true) (hl : s'.lock = none) (hp : s'.pc = upd s.pc t c)
    (hc : c.critical = false) : Exclusive s' := by
  intro u
  rw [hl, hp]
  by_cases e : u = t
  · subst e; simp [hc]
  · rw [upd_ne _ _ e, ← h u, (h t).mpr ht]
    simp [Ne.symm e]

theorem linkPool_exclusive {s s' : St T} (h : Exclusive s) (t : Fin T) (ht : (s.pc t).critical = true) {p1 : Pool} {bs : List Block}
    (he : linkPool s t p1 bs = some s') : Exclusive s' := by
  unfold linkPool at he
  simp only at he
  split at he
  · cases he; exact h.release t .idle ht rfl rfl rfl
  · split at he
    · cases he
    · cases he; exact h.release t .idle ht rfl rfl rfl

theorem setPc_exclusive {s s' : St T} (h : Exclusive s) (t : Fin T) {c : Pc} (he : some (s.setPc t c) = some s') (hc : c.critical = (s.pc t).critical) :
    Exclusive s' := by
  rw [← Option.some.inj he]
  exact h.keep t c (by simp only [St.setPc]) (by simp only [St.setPc]) hc

theorem setPool_exclusive {s : St T} (h : Exclusive s) (p : Nat) (v : Pool) : Exclusive (s.setPool p v) := h

theorem cas_exclusive {s s' : St T} (h : Exclusive s) (t : Fin T) {v : Pool} {p : Nat} {b : Block} {locked : Bool} (ht : (s.pc t).critical = locked)
    (he : some ((((s.setPool p v).addBlock b).setPc t .idle).unlockIf locked) = some s') : Exclusive s' := by
  rw [← Option.some.inj he]
  cases hlk : locked with
  | false => exact h.keep t .idle (by simp [St.unlockIf, St.setPc, St.addBlock, St.setPool]) (by simp [St.unlockIf, St.setPc, St.addBlock, St.setPool]) (by rw [ht, hlk]; rfl)
  | true => exact h.release t .idle (by rw [ht, hlk]) (by simp [St.unlockIf]) (by simp [St.unlockIf, St.setPc, St.addBlock, St.setPool]) rfl

theorem take_exclusive {s s' : St T} (h : Exclusive s) (t : Fin T) {c : Pc} (hl : s.lock = none) (hc : c.critical = true)
    (he : some ({ s with lock := some t }.setPc t c) = some s') : Exclusive s' := by
  rw [← Option.some.inj he]
  intro u
  by_cases e : u = t
  · subst e; simp [St.setPc, hc]
  · have := h u
    rw [hl] at this
    simp only [St.setPc]
    rw [upd_ne _ _ e, ← this]
    simp [Ne.symm e]

theorem newPoolAt_exclusive {s s' : St T} (h : Exclusive s) (t : Fin T) (ht : (s.pc t).critical = true) {size align : Nat} {p0 : Pool}
    (he : newPoolAt s t size align p0 = some s') : Exclusive s' := by
  rw [newPoolAt] at he
  cases hr : tryCompute p0 (p0.next, p0.active) size align with
  | none => rw [hr] at he; exact linkPool_exclusive h t ht he
  | some x =>
    obtain ⟨a, n, c⟩ := x
    rw [hr] at he; simp only at he; exact linkPool_exclusive h t ht he

theorem newPool_exclusive {s s' : St T} (h : Exclusive s) (t : Fin T) (ht : (s.pc t).critical = true) {size align base : Nat}
    (he : newPool s t size align base = some s') : Exclusive s' := by
  rw [newPool] at he
  exact newPoolAt_exclusive h t ht he

theorem run_exclusive {s s' : St T} (h : Exclusive s) (t : Fin T) (spur : Bool) (base : Nat) (he : run s t spur base = some s') : Exclusive s' := by
  have hno : ∀ {a : St T}, (none : Option (St T)) = some a → Exclusive a := fun e => by simp at e
  cases hpc : s.pc t with
  | idle => simp only [run, hpc] at he; rw [← Option.some.inj he]; exact h
  | scan size align cur locked =>
    cases cur with
    | some p =>
      simp only [run, hpc] at he
      by_cases ha : (s.pools p).alive = true
      · rw [if_pos ha] at he
        exact setPc_exclusive h t he (by rw [hpc]; rfl)
      · rw [if_neg ha] at he; exact hno he
    | none =>
      cases locked with
      | true =>
        simp only [run, hpc] at he
        exact newPool_exclusive h t (by rw [hpc]; rfl) he
      | false =>
        simp only [run, hpc] at he
        cases hl : s.lock with
        | none => simp only [hl] at he; exact take_exclusive h t hl rfl he
        | some u => simp only [hl] at he; rw [← Option.some.inj he]; exact h
  | cas size align p e locked =>
    simp only [run, hpc] at he
    by_cases ha : (s.pools p).alive = true
    · rw [if_pos ha] at he
      generalize tryCompute (s.pools p) e size align = r at he
      cases r with
      | none => exact setPc_exclusive h t he (by rw [hpc]; rfl)
      | some x =>
        obtain ⟨a, n, c⟩ := x
        simp only at he
        by_cases hcas : e = ((s.pools p).next, (s.pools p).active) ∧ spur = false
        · rw [if_pos hcas] at he
          exact cas_exclusive h t (by rw [hpc]; rfl) he
        · rw [if_neg hcas] at he
          exact setPc_exclusive h t he (by rw [hpc]; rfl)
    · rw [if_neg ha] at he; exact hno he
  | freeAt addr cur =>
    cases cur with
    | none => simp only [run, hpc] at he; exact hno he
    | some p =>
      simp only [run, hpc] at he
      by_cases ha : (s.pools p).alive = true
      · rw [if_pos ha] at he
        by_cases hc : contains (s.pools p) addr = true
        · rw [if_pos hc] at he; exact setPc_exclusive h t he (by rw [hpc]; rfl)
        · rw [if_neg hc] at he; exact setPc_exclusive h t he (by rw [hpc]; rfl)
      · rw [if_neg ha] at he; exact hno he
  | freeSub addr p =>
    simp only [run, hpc] at he
    by_cases ha : (s.pools p).alive = true
    · rw [if_pos ha] at he
      generalize fetchSub (s.pools p) = v at he
      by_cases h0 : (s.pools p).active = 0
      · rw [if_pos h0] at he
        exact setPc_exclusive (setPool_exclusive h p v) t he (by rw [St.setPool, hpc]; rfl)
      · rw [if_neg h0] at he
        have hb : Exclusive { s.setPool p v with blocks := (s.setPool p v).blocks.filter fun b => b.addr ≠ addr } := h
        by_cases h1 : (s.pools p).active = 1
        · rw [if_pos h1] at he
          exact setPc_exclusive hb t he (by rw [St.setPool, hpc]; rfl)
        · rw [if_neg h1] at he
          exact setPc_exclusive hb t he (by rw [St.setPool, hpc]; rfl)
    · rw [if_neg ha] at he; exact hno he
  | rm0 =>
    simp only [run, hpc] at he
    cases hh : s.head with
    | none => simp only [hh] at he; exact hno he
    | some p =>
      simp only [hh] at he
      by_cases ha : (s.pools p).alive = true
      · rw [if_pos ha] at he; exact setPc_exclusive h t he (by rw [hpc]; rfl)
      · rw [if_neg ha] at he; exact hno he
  | rmLoop p empty =>
    simp only [run, hpc] at he
    by_cases ha : (s.pools p).alive = true
    · rw [if_pos ha] at he
      cases hn : (s.pools p).nxt with
      | none => simp only [hn] at he; exact setPc_exclusive h t he (by rw [hpc]; rfl)
      | some q =>
        simp only [hn] at he
        by_cases hq : (s.pools q).alive = true
        · rw [if_pos hq] at he
          by_cases h0 : (s.pools q).active = 0
          · rw [if_pos h0] at he
            cases empty with
            | true => exact setPc_exclusive h t he (by rw [hpc]; rfl)
            | false => exact setPc_exclusive h t he (by rw [hpc]; rfl)
          · rw [if_neg h0] at he; exact setPc_exclusive h t he (by rw [hpc]; rfl)
        · rw [if_neg hq] at he; exact hno he
    · rw [if_neg ha] at he; exact hno he
  | rmLock p q =>
    simp only [run, hpc] at he
    cases hl : s.lock with
    | some u => simp only [hl] at he; rw [← Option.some.inj he]; exact h
    | none =>
      simp only [hl] at he
      by_cases hq : (s.pools q).alive = true
      · rw [if_pos hq] at he
        by_cases h0 : (s.pools q).active = 0
        · rw [if_pos h0] at he
          by_cases hp : (s.pools p).alive = true
          · rw [if_pos hp] at he
            exact setPc_exclusive (setPool_exclusive (setPool_exclusive h p _) q _) t he (by rw [St.setPool, St.setPool, hpc]; rfl)
          · rw [if_neg hp] at he; exact hno he
        · rw [if_neg h0] at he; exact setPc_exclusive h t he (by rw [hpc]; rfl)
      · rw [if_neg hq] at he; exact hno he

end FastNoise.Pool
