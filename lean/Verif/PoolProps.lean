import Verif.PoolMutex

/-! # C14: the node memory allocator

`Reach R s`: `s` is reachable by any number of threads, any interleaving, any calls that keep the contract `legal` (sizes between
2 and `R` bytes including alignment, pool sizes that hold such a request, each block freed once).  A block in `s.blocks` is one
that was returned by `Allocate` and not yet passed to `Free`. -/

namespace FastNoise.Pool

variable {T : Nat}

/-- The contract `legal`, as a check. -/
def legalB (R : Nat) (s : St T) (t : Fin T) : Act → Bool
  | .alloc size align => s.pc t = .idle && 2 ≤ size && 0 < align && size + align ≤ R
  | .free addr => s.pc t = .idle && s.blocks.any (fun b => b.addr = addr) && (List.finRange T).all (fun u => (s.pc u).freeing ≠ some addr)
  | .setPoolSize n => s.pc t = .idle && hdr + R ≤ n && n < 2 ^ 31
  | .run _ base => s.pc t ≠ .idle && (List.range s.count).all fun p => !(s.pools p).alive ||
      (base + (max hdr s.newSize - hdr) ≤ (s.pools p).base || (s.pools p).base + (s.pools p).cap ≤ base)

/-- Runs a list of actions, checking the contract at every step. -/
def play (R : Nat) : St T → List (Fin T × Act) → Option (St T)
  | s, [] => some s
  | s, (t, a) :: l =>
    if legalB R s t a then
      match exec s t a with
      | some s' => play R s' l
      | none => none
    else none

theorem play_reach {R : Nat} (hR : hdr + R ≤ 64 * 1024) {l : List (Fin T × Act)} {s s' : St T} (h : Reach R s) (hp : play R s l = some s') :
    Reach R s' := by
  induction l generalizing s with
  | nil => cases hp; exact h
  | cons x l ih =>
    obtain ⟨t, a⟩ := x
    simp only [play] at hp
    split at hp
    · next hok =>
      split at hp
      · next s1 he =>
        refine ih (Reach.step t a h ?_ he) hp
        cases a with
        | alloc size align => simp [legalB] at hok; exact ⟨hok.1.1.1, hok.1.1.2, hok.1.2, hok.2⟩
        | free addr => simp [legalB] at hok; exact ⟨hok.1.1, hok.1.2, hok.2⟩
        | setPoolSize n => simp [legalB] at hok; exact ⟨hok.1.1, hok.1.2, hok.2⟩
        | run spur base =>
          simp only [legalB, Bool.and_eq_true, decide_eq_true_eq, List.all_eq_true, List.mem_range, Bool.or_eq_true, Bool.not_eq_true'] at hok
          refine ⟨by simpa using hok.1, fun p hp => ?_⟩
          rcases hok.2 p ((reach_inv hR h).pool p hp).lt with h1 | h1
          · rw [hp] at h1; cases h1
          · exact h1
      · cases hp
    · cases hp

/-- **C14** (safety of the result, all interleavings): at every reachable moment the blocks handed out do not overlap, are
aligned as asked, and lie entirely inside the memory of a pool that has not been given back; the pools do not overlap. -/
theorem C14_blocks_disjoint_aligned_inside {R : Nat} (hR : hdr + R ≤ 64 * 1024) {s : St T} (h : Reach R s) :
    (s.blocks.Pairwise fun b c => Disjoint b.addr b.size c.addr c.size) ∧
      (∀ b ∈ s.blocks, b.align ∣ b.addr ∧ (s.pools b.pool).alive = true ∧ (s.pools b.pool).base ≤ b.addr ∧
        b.addr + b.size ≤ (s.pools b.pool).base + (s.pools b.pool).cap) ∧
      (∀ p q, p ≠ q → (s.pools p).alive = true → (s.pools q).alive = true →
        Disjoint (s.pools p).base (s.pools p).cap (s.pools q).base (s.pools q).cap) := by
  have hI := reach_inv hR h
  exact ⟨hI.disj, fun b hb => ⟨(hI.block b hb).align, (hI.block b hb).alive, hI.block_region hb⟩, hI.reg⟩

/-- **C14**: when a call of `Allocate( size, align )` returns, exactly one new block of that size and alignment exists. -/
theorem C14_allocate_returns_block {R : Nat} (hR : hdr + R ≤ 64 * 1024) {s s' : St T} (h : Reach R s) (t : Fin T) (spur : Bool) (base : Nat)
    (hl : legal R s t (.run spur base)) {size align : Nat} (hpc : (∃ cur locked, s.pc t = .scan size align cur locked) ∨
      (∃ p e locked, s.pc t = .cas size align p e locked)) (he : exec s t (.run spur base) = some s') (hret : s'.pc t = .idle) :
    ∃ p a, s'.blocks = ⟨p, a, size, align⟩ :: s.blocks := by
  have hI := reach_inv hR h
  have hpok := hI.pc t
  obtain ⟨-, hm⟩ := hl
  simp only [exec, run] at he
  rcases hpc with ⟨cur, locked, hc⟩ | ⟨p, e, locked, hc⟩
  · rw [hc] at he hpok
    cases cur with
    | some p =>
      simp only at he
      split at he
      · cases he; simp [St.setPc] at hret
      · cases he
    | none =>
      cases locked with
      | false =>
        simp only at he
        split at he
        · cases he; simp [St.setPc] at hret
        · cases he; rw [hc] at hret; cases hret
      | true =>
        simp only at he
        obtain ⟨h2, h1, h3⟩ := hpok
        obtain ⟨g1, g2⟩ := hI.cfg
        have hcap : max hdr s.newSize - hdr = s.newSize - hdr := by rw [Nat.max_eq_right (by omega)]
        obtain ⟨a, hsa⟩ := stdAlign_some (size := size) (ptr := base) (space := s.newSize - hdr) h1 (by omega)
        obtain ⟨b1, b2, b3⟩ := stdAlign_spec h1 hsa
        exact ⟨_, _, (newPool_facts t (newPoolSize_eq (by omega) g2) hcap (tryCompute_new (by omega) hsa b3) he).2.2.2.2.1⟩
  · rw [hc] at he
    simp only at he
    split at he
    · split at he
      · cases he; simp [St.setPc] at hret
      · next a n c htc =>
        split at he
        · cases he
          exact ⟨p, a, by cases locked <;> rfl⟩
        · cases he; simp [St.setPc] at hret
    · cases he

/-- **C14**: while `Free( addr )` walks the pools, exactly the pool that owns the block claims it. -/
theorem C14_free_finds_its_pool {R : Nat} (hR : hdr + R ≤ 64 * 1024) {s : St T} (h : Reach R s) {b : Block} (hb : b ∈ s.blocks) {p : Nat}
    (hp : (s.pools p).alive = true) : contains (s.pools p) b.addr = true ↔ b.pool = p :=
  contains_pool (reach_inv hR h) hb hp

/-- **C14**: the step of `Free( addr )` that gives the block back removes that block and no other. -/
theorem C14_free_removes_only_its_block {R : Nat} (hR : hdr + R ≤ 64 * 1024) {s s' : St T} (h : Reach R s) (t : Fin T) (spur : Bool)
    (base addr p : Nat) (hpc : s.pc t = .freeSub addr p) (he : exec s t (.run spur base) = some s') (c : Block) :
    c ∈ s'.blocks ↔ c ∈ s.blocks ∧ c.addr ≠ addr := by
  have hI := reach_inv hR h
  have hpok := hI.pc t
  rw [hpc] at hpok
  obtain ⟨b, hb, hba, hbp⟩ := hpok
  simp only [exec, run, hpc] at he
  split at he
  · next hp =>
    have h0 : (s.pools p).active ≠ 0 := by
      intro h0
      have := sum_zero_of ((hI.pool p hp).active ▸ h0) b hb
      simp [inPool, hbp] at this
    rw [if_neg h0] at he
    split at he <;> cases he <;> simp [St.setPc, St.setPool, List.mem_filter]
  · cases he

/-- **C14** (all interleavings): the allocator touches memory it has given back, or fails to find a block passed to `Free`, only
after some pool has been removed. -/
theorem C14_no_failure_before_a_pool_is_removed {R : Nat} (hR : hdr + R ≤ 64 * 1024) {s : St T} (h : Reach R s) (t : Fin T) (a : Act)
    (hl : legal R s t a) (hkeep : ∀ p, p < s.count → (s.pools p).alive = true) : ∃ s', exec s t a = some s' := by
  obtain ⟨L, hC⟩ := reach_chain hR h
  have hv : Live s t := by
    intro p hp
    refine hkeep p ?_
    have := hC.pcs t
    cases hc : s.pc t <;> rw [hc] at this hp
    case scan _ _ cur _ => cases cur <;> simp [Pc.ptrs, pcL] at hp this; omega
    case freeAt a cur =>
      obtain ⟨q, rfl, h2, _⟩ := this
      simp [Pc.ptrs] at hp; omega
    case rmLock => simp [Pc.ptrs] at hp; rcases hp with rfl | rfl <;> first | exact this.1 | exact this.2.1
    all_goals (simp [Pc.ptrs, pcL] at hp this; try omega)
  obtain ⟨s', h1, _⟩ := live_step (reach_inv hR h) hC t a hl hv
  exact ⟨s', h1⟩

/-- Calls that do not overlap in time: whenever a thread takes a step, every other thread is between calls. -/
inductive Serial (R : Nat) : St T → Prop
  | init : Serial R St.init
  | step {s s' : St T} (t : Fin T) (a : Act) : Serial R s → (∀ u, u ≠ t → s.pc u = .idle) → legal R s t a → exec s t a = some s' → Serial R s'

theorem Serial.reach {R : Nat} {s : St T} (h : Serial R s) : Reach R s := by
  induction h with
  | init => exact .init
  | step t a _ _ hl he ih => exact .step t a ih hl he

theorem Serial.live {R : Nat} (hR : hdr + R ≤ 64 * 1024) {s : St T} (h : Serial R s) : ∀ t, Live s t := by
  induction h with
  | init => intro t p hp; simp [St.init, Pc.ptrs] at hp
  | @step s s' t a h hs hl he ih =>
    obtain ⟨L, hC⟩ := reach_chain hR h.reach
    obtain ⟨s2, h1, h2⟩ := live_step (reach_inv hR h.reach) hC t a hl (ih t)
    rw [he] at h1; cases h1
    intro u
    by_cases e : u = t
    · subst e; exact h2
    · intro p hp
      have : s'.pc u = .idle := by
        have hsame : ∀ x : St T, x.pc u = s.pc u → x.pc u = .idle := fun x hx => by rw [hx, hs u e]
        refine hsame s' ?_
        have hset : ∀ (x : St T) c, (x.setPc t c).pc u = x.pc u := fun x c => upd_ne _ _ e
        cases a with
        | alloc => cases he; exact hset _ _
        | free => cases he; exact hset _ _
        | setPoolSize => cases he; rfl
        | run spur base =>
          simp only [exec, run] at he
          split at he
          · cases he; rfl
          · split at he
            · cases he; exact hset _ _
            · cases he
          · split at he
            · cases he; exact hset _ _
            · cases he; rfl
          · next size align hc =>
            have hpok := (reach_inv hR h.reach).pc t
            rw [hc] at hpok
            obtain ⟨g1, g2⟩ := (reach_inv hR h.reach).cfg
            have hcap : max hdr s.newSize - hdr = s.newSize - hdr := by rw [Nat.max_eq_right (by omega)]
            have h2 := newPool_eq t (newPoolSize_eq (by omega) g2) hcap he
            unfold newPoolAt at h2
            split at h2
            · rw [(linkPool_facts h2).2.2.2.2.2, upd_ne _ _ e]
            · rw [(linkPool_facts h2).2.2.2.2.2, upd_ne _ _ e]
          · next size align p ee locked hc =>
            split at he
            · split at he
              · cases he; exact hset _ _
              · split at he
                · cases he
                  cases locked <;> exact hset _ _
                · cases he; exact hset _ _
            · cases he
          · cases he
          · split at he
            · split at he <;> cases he <;> exact hset _ _
            · cases he
          · split at he
            · split at he
              · cases he; exact hset _ _
              · split at he <;> cases he <;> exact hset _ _
            · cases he
          · split at he
            · cases he
            · split at he
              · cases he; exact hset _ _
              · cases he
          · split at he
            · split at he
              · cases he; exact hset _ _
              · split at he
                · split at he
                  · split at he <;> cases he <;> exact hset _ _
                  · cases he; exact hset _ _
                · cases he
            · cases he
          · split at he
            · cases he; rfl
            · split at he
              · split at he
                · split at he
                  · cases he; exact hset _ _
                  · cases he
                · cases he; exact hset _ _
              · cases he
      rw [this] at hp; simp [Pc.ptrs] at hp

/-- **C14** (calls that do not overlap): no call ever touches memory that was given back, and `Free` always finds its block. -/
theorem C14_serial_calls_never_fail {R : Nat} (hR : hdr + R ≤ 64 * 1024) {s : St T} (h : Serial R s) (t : Fin T) (a : Act)
    (hl : legal R s t a) : ∃ s', exec s t a = some s' := by
  obtain ⟨L, hC⟩ := reach_chain hR h.reach
  obtain ⟨s', h1, _⟩ := live_step (reach_inv hR h.reach) hC t a hl (h.live hR t)
  exact ⟨s', h1⟩

/-! ## Non-vacuity and counterexamples -/

def r (base : Nat) : Act := .run false base

/-- Thread 0 fills two pools of 100 bytes; thread 1 starts an allocation and pauses after looking at the first pool. -/
def traceFill : List (Fin 2 × Act) :=
  [(0, .setPoolSize 124), (0, .alloc 60 8), (0, r 1000), (0, r 1000), (0, .alloc 60 8), (0, r 2000), (0, r 2000), (0, r 2000), (0, r 2000),
   (0, r 2000), (0, r 2000), (1, .alloc 60 8), (1, r 3000), (1, r 3000)]

/-- Thread 0 then frees both blocks; the second pool is given back. -/
def traceFree : List (Fin 2 × Act) :=
  [(0, .free 1000), (0, r 0), (0, r 0), (0, r 0), (0, r 0), (0, r 0), (0, .free 2000), (0, r 0), (0, r 0), (0, r 0), (0, r 0), (0, r 0), (0, r 0)]

/-- Two pools with a block in each are reachable. -/
example : ∃ s : St 2, Reach 100 s ∧ s.blocks = [⟨1, 2000, 60, 8⟩, ⟨0, 1000, 60, 8⟩] := by
  have h : ∃ s : St 2, play 100 St.init traceFill = some s ∧ s.blocks = [⟨1, 2000, 60, 8⟩, ⟨0, 1000, 60, 8⟩] := by
    refine ⟨((play 100 St.init traceFill).get (by decide +kernel)), by simp, by decide +kernel⟩
  obtain ⟨s, h1, h2⟩ := h
  exact ⟨s, play_reach (by decide) .init h1, h2⟩

/-- **C14 fails for overlapping calls**: a thread inside `Allocate` reads a pool that another thread has just given back to the
system (`AllocFromPools` walks the list without the mutex, `RemoveEmptyPool` frees pools). -/
theorem C14_use_after_free_race : ∃ s : St 2, Reach 100 s ∧ legal 100 s 1 (r 3000) ∧ exec s 1 (r 3000) = none := by
  have h : ∃ s : St 2, play 100 St.init (traceFill ++ traceFree) = some s ∧ (exec s 1 (r 3000) = none ∧ s.pc 1 ≠ .idle ∧ s.count = 2 ∧
      (∀ p, p < 2 → (s.pools p).alive = true → 3000 + (max hdr s.newSize - hdr) ≤ (s.pools p).base ∨ (s.pools p).base + (s.pools p).cap ≤ 3000)) := by
    refine ⟨((play 100 St.init (traceFill ++ traceFree)).get (by decide +kernel)), by simp, ?_, by decide +kernel, by decide +kernel, by decide +kernel⟩
    rw [← Option.not_isSome_iff_eq_none]
    decide +kernel
  obtain ⟨s, h1, h2, h3, h4, h5⟩ := h
  have hr := play_reach (by decide) (Reach.init (R := 100)) h1
  refine ⟨s, hr, ⟨h3, fun p hp => h5 p ?_ hp⟩, h2⟩
  have := ((reach_inv (by decide) hr).pool p hp).lt
  omega

/-- **C14 fails for requests larger than a pool**: `Allocate` returns null (only an assert), and the empty pool it leaves behind
claims every address up to 4 GiB above it. -/
theorem C14_oversized_request : ∃ s s2 s3 : St 1, exec St.init 0 (.alloc 100000 8) = some s ∧ exec s 0 (r 1000) = some s2 ∧
    exec s2 0 (r 1000) = some s3 ∧ s3.pc 0 = .idle ∧ s3.blocks = [] ∧ contains (s3.pools 0) 4000000000 = true := by
  refine ⟨_, _, _, rfl, rfl, rfl, by decide +kernel, by decide +kernel, by decide +kernel⟩

/-- **C14 fails for `SetMemoryPoolSize` below the size of a pool header**: the block lies outside the memory obtained. -/
theorem C14_small_pool_size : ∃ s s1 s2 s3 : St 1, exec St.init 0 (.setPoolSize 10) = some s ∧ exec s 0 (.alloc 64 8) = some s1 ∧
    exec s1 0 (r 1000) = some s2 ∧ exec s2 0 (r 1000) = some s3 ∧ s3.blocks = [⟨0, 1000, 64, 8⟩] ∧ (s3.pools 0).cap = 0 := by
  refine ⟨_, _, _, _, rfl, rfl, rfl, rfl, by decide +kernel, by decide +kernel⟩

/-- **C14 fails for one byte requests**: `Free` does not find the block. -/
theorem C14_one_byte_request : ∃ s s2 s3 s4 s5 : St 1, exec St.init 0 (.alloc 1 1) = some s ∧ exec s 0 (r 1000) = some s2 ∧
    exec s2 0 (r 1000) = some s3 ∧ s3.blocks = [⟨0, 1000, 1, 1⟩] ∧ exec s3 0 (.free 1000) = some s4 ∧ exec s4 0 (r 0) = some s5 ∧
    exec s5 0 (r 0) = none := by
  refine ⟨_, _, _, _, _, rfl, rfl, rfl, by decide +kernel, rfl, rfl, rfl⟩

/-- **C14**, the mutex: at every reachable moment it is held exactly while one thread is adding a pool or searching the pools for the second time; at most one thread is,
and it releases the mutex on every way out (so no later call waits for ever). -/
theorem C14_mutex {R : Nat} {s : St T} (h : Reach R s) :
    (∀ t, s.lock = some t ↔ (s.pc t).critical = true) ∧ (∀ t u, (s.pc t).critical = true → (s.pc u).critical = true → t = u) ∧
      ((∀ t, s.pc t = .idle) → s.lock = none) := by
  have key : Exclusive s := by
    induction h with
    | init => intro t; simp [St.init, Pc.critical]
    | step t a _ hl he ih =>
      cases a with
      | alloc size align => simp only [exec, Option.some.injEq] at he; subst he; exact ih.keep t _ rfl rfl (by rw [hl.1]; rfl)
      | free addr => simp only [exec, Option.some.injEq] at he; subst he; exact ih.keep t _ rfl rfl (by rw [hl.1]; rfl)
      | setPoolSize n => simp only [exec, Option.some.injEq] at he; subst he; exact ih
      | run spur base => exact run_exclusive ih t spur base he
  refine ⟨key, fun t u ht hu => ?_, fun hi => ?_⟩
  · have h1 := (key t).mpr ht
    have h2 := (key u).mpr hu
    rw [h1] at h2; exact Option.some.inj h2
  · cases hlk : s.lock with
    | none => rfl
    | some t => have := (key t).mp hlk; rw [hi t] at this; cases this

/-- Non-vacuity: the second pool is created under the mutex. -/
example : ∃ s : St 2, play 100 St.init [(0, .setPoolSize 124), (0, .alloc 60 8), (0, .run false 1000)] = some s ∧ s.lock = some 0 := by
  refine ⟨_, rfl, by decide +kernel⟩

end FastNoise.Pool
