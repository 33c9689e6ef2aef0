import Verif.ChunksLemmas

/-! Invariant of the streaming of chunks. -/

namespace FastNoise.Chunks
open FastNoise.Mesh

/-- What holds between any two steps. -/
structure Inv (s : St) : Prop where
  ver : s.version = UInt32.ofNat s.gen ∧ s.cqVersion = UInt32.ofNat s.gen
  jobs : ∀ j ∈ s.jobs, j.gen = s.gen ∧ j.version = UInt32.ofNat j.gen
  busy : ∀ j ∈ s.busy, j.gen ≤ s.gen ∧ j.version = UInt32.ofNat j.gen
  chunks : ∀ j ∈ s.chunks, j.gen = s.gen
  drain : s.draining = true → s.registered = [] ∧ s.chunks = [] ∧ s.jobs = [] ∧ s.pending = [] ∧ (∀ j ∈ s.busy, j.gen ≠ s.gen)
  done : s.draining = false → ∀ j ∈ s.done, j.gen = s.gen
  count : s.draining = false → ∀ p, (live s).count p = s.registered.count p
  nodup : s.registered.Nodup
  pend : s.pending.Nodup ∧ ∀ p ∈ s.pending, p ∉ s.registered
  grid : (∀ p ∈ s.registered, OnGrid p) ∧ ∀ p ∈ s.pending, OnGrid p
  range : 192 ≤ s.range ∧ s.range ≤ 3000

theorem count_live (s : St) (p : I3) : (live s).count p = (s.chunks.map Job.pos).count p + (s.jobs.map Job.pos).count p +
    ((s.busy.filter fun j => j.gen = s.gen).map Job.pos).count p + (s.done.map Job.pos).count p := by
  simp only [live, List.count_append]

theorem eraseIdx_perm {α : Type} {l : List α} {i : Nat} {a : α} (h : l[i]? = some a) : l.Perm (a :: l.eraseIdx i) := by
  induction l generalizing i with
  | nil => cases h
  | cons b l ih =>
    cases i with
    | zero => simp only [List.getElem?_cons_zero, Option.some.injEq] at h; subst h; exact List.Perm.refl _
    | succ i => exact ((ih h).cons b).trans (List.Perm.swap _ _ _)

theorem step_inv {s s' : St} {op : Op} (hb : s.gen < 2 ^ 32) (I : Inv s) (h : step s op = some s') : Inv s' ∧ s.gen ≤ s'.gen := by
  obtain ⟨ver, jobs, busy, chunks, drain, done, count, nodup, pend, grid, range⟩ := I
  cases op with
  | regenerate hh =>
    simp only [step] at h
    split at h
    · cases h
    · next hn =>
      cases h
      have hp : s.pending = [] := by by_contra hc; exact hn (Or.inr hc)
      have hv : s.cqVersion + 1 = UInt32.ofNat (s.gen + 1) := by rw [ver.2]; simp
      refine ⟨⟨⟨hv, hv⟩, by simp, ?_, by simp, ?_, by simp, by simp, by simp, by simp [hp], by simp [hp], by norm_num⟩, Nat.le_succ _⟩
      · exact fun j hj => ⟨(busy j hj).1.trans (Nat.le_succ _), (busy j hj).2⟩
      · refine fun _ => ⟨rfl, rfl, rfl, hp, fun j hj => ?_⟩
        have := (busy j hj).1
        simp only
        omega
  | drainOne =>
    simp only [step] at h
    split at h
    · next hd =>
      split at h
      · cases h
      · next j rest he =>
        cases h
        exact ⟨⟨ver, jobs, busy, chunks, drain, by simp [hd], by simp [hd], nodup, pend, grid, range⟩, Nat.le_refl _⟩
    · cases h
  | drainEnd =>
    simp only [step] at h
    split at h
    · next hd =>
      split at h
      · next he =>
        cases h
        obtain ⟨d1, d2, d3, d4, d5⟩ := drain hd
        refine ⟨⟨ver, jobs, busy, chunks, by simp, by simp [he], ?_, nodup, pend, grid, range⟩, Nat.le_refl _⟩
        intro _ p
        rw [count_live]
        have : (s.busy.filter fun j => j.gen = s.gen) = [] := by
          rw [List.filter_eq_nil_iff]; simpa using d5
        simp only [d1, d2, d3, he, this]
        simp
      · cases h
    · cases h
  | shrink =>
    simp only [step] at h
    split at h
    · cases h
    · cases h
      have hm := modifier_bounds (r := s.range) (by linarith [range.1])
      refine ⟨⟨ver, jobs, busy, chunks, drain, done, count, nodup, pend, grid, ?_, ?_⟩, Nat.le_refl _⟩
      · exact le_trans (by norm_num) (le_max_right _ _)
      · refine max_le ?_ (by norm_num)
        nlinarith [range.1, range.2, hm.1]
  | grow =>
    simp only [step] at h
    split at h
    · cases h
    · cases h
      have hm := modifier_bounds (r := s.range) (by linarith [range.1])
      refine ⟨⟨ver, jobs, busy, chunks, drain, done, count, nodup, pend, grid, ?_, min_le_right _ _⟩, Nat.le_refl _⟩
      refine le_min ?_ (by norm_num)
      nlinarith [range.1, range.2, hm.1]
  | consume =>
    simp only [step] at h
    split at h
    · cases h
    · next hn =>
      split at h
      · cases h
      · next j rest he =>
        cases h
        have hd : s.draining = false := by simpa using fun hc => hn (Or.inl hc)
        have hdone := done hd
        rw [he] at hdone
        refine ⟨⟨ver, jobs, busy, ?_, ?_, ?_, ?_, nodup, pend, grid, range⟩, Nat.le_refl _⟩
        · intro k hk
          rcases List.mem_append.mp hk with hk | hk
          · exact chunks k hk
          · rw [List.mem_singleton] at hk; exact hk ▸ hdone j (by simp)
        · intro hc; rw [hd] at hc; cases hc
        · exact fun _ k hk => hdone k (by simp [hk])
        · intro _ p
          have := count hd p
          rw [count_live, he] at this
          rw [count_live]
          simp only [List.map_append, List.map_cons, List.map_nil, List.count_append, List.count_cons, List.count_nil] at this ⊢
          omega
  | sort cam order =>
    simp only [step] at h
    split at h
    · cases h
    · split at h
      · next hn ho =>
        cases h
        have hd : s.draining = false := by simpa using fun hc => hn (Or.inl hc)
        refine ⟨⟨ver, jobs, busy, ?_, ?_, done, ?_, nodup, pend, grid, range⟩, Nat.le_refl _⟩
        · exact fun k hk => chunks k (ho.1.mem_iff.mp hk)
        · intro hc; rw [hd] at hc; cases hc
        · intro _ p
          have := count hd p
          rw [count_live] at this ⊢
          simp only
          rw [(ho.1.map Job.pos).count_eq]
          exact this
      · cases h
  | unload cam =>
    simp only [step] at h
    split at h
    · cases h
    · next hn =>
      split at h
      · cases h
      · next j hj =>
        split at h
        · cases h
          have hd : s.draining = false := by simpa using fun hc => hn (Or.inl hc)
          have hp : s.pending = [] := by by_contra hc; exact hn (Or.inr hc)
          have hsplit : s.chunks = s.chunks.dropLast ++ [j] := by
            exact (List.dropLast_append_getLast? j hj).symm
          refine ⟨⟨ver, jobs, busy, ?_, ?_, done, ?_, nodup.filter _, by simp [hp], ⟨?_, by simp [hp]⟩, range⟩, Nat.le_refl _⟩
          · exact fun k hk => chunks k (List.dropLast_subset _ hk)
          · intro hc; rw [hd] at hc; cases hc
          · intro _ p
            have hc := count hd p
            rw [count_live, hsplit] at hc
            rw [count_live]
            simp only [List.map_append, List.map_cons, List.map_nil, List.count_append, List.count_cons, List.count_nil] at hc ⊢
            by_cases hpj : p = j.pos
            · subst hpj
              have h1 : s.registered.count j.pos ≤ 1 := List.nodup_iff_count_le_one.mp nodup _
              have h2 : (s.registered.filter (· ≠ j.pos)).count j.pos = 0 := by
                rw [List.count_eq_zero]; simp
              rw [h2]
              simp only [beq_self_eq_true, if_true] at hc
              omega
            · rw [List.count_filter (by simpa using hpj)]
              have : (j.pos == p) = false := by simpa using fun e => hpj e.symm
              rw [this] at hc
              simp only [Bool.false_eq_true, if_false] at hc
              omega
          · exact fun p hp => grid.1 p (List.mem_filter.mp hp).1
        · cases h
  | request cam order =>
    simp only [step] at h
    split at h
    · cases h
    · split at h
      · next hn ho =>
        cases h
        have hd : s.draining = false := by simpa using fun hc => hn (Or.inl hc)
        have hmem : ∀ p ∈ order, _ := fun p hp => (mem_candidates (by linarith [range.1])).mp (ho.1.mem_iff.mp hp)
        refine ⟨⟨ver, jobs, busy, chunks, ?_, done, count, nodup, ⟨?_, ?_⟩, ⟨grid.1, ?_⟩, range⟩, Nat.le_refl _⟩
        · intro hc; rw [hd] at hc; cases hc
        · exact ho.1.nodup_iff.mpr (candidates_nodup _ _ _ _ _)
        · exact fun p hp => (hmem p hp).2.1
        · exact fun p hp => (hmem p hp).1.1
      · cases h
  | push =>
    simp only [step] at h
    split at h
    · cases h
    · next p rest he =>
      have hd : s.draining = false := by
        by_contra hc
        have := (drain (by simpa using hc)).2.2.2.1
        rw [he] at this; cases this
      rw [he] at pend grid
      have hnr := List.nodup_cons.mp pend.1
      have key : ∀ l c, (∀ q ∈ l, q ∈ rest) → l.Nodup →
          Inv { s with registered := p :: s.registered, jobs := s.jobs ++ [⟨p, s.version, s.gen⟩], pending := l, cut := c } := by
        intro l c hl hln
        refine ⟨ver, ?_, busy, chunks, ?_, done, ?_, ?_, ⟨hln, ?_⟩, ⟨?_, ?_⟩, range⟩
        · intro k hk
          rcases List.mem_append.mp hk with hk | hk
          · exact jobs k hk
          · rw [List.mem_singleton] at hk; subst hk; exact ⟨rfl, ver.1⟩
        · intro hc; rw [hd] at hc; cases hc
        · intro _ q
          have := count hd q
          rw [count_live] at this ⊢
          simp only [List.map_append, List.map_cons, List.map_nil, List.count_append, List.count_cons, List.count_nil] at this ⊢
          omega
        · exact List.nodup_cons.mpr ⟨pend.2 p (by simp), nodup⟩
        · intro q hq
          simp only [List.mem_cons, not_or]
          exact ⟨fun e => hnr.1 (e ▸ hl q hq), pend.2 q (by simp [hl q hq])⟩
        · intro q hq
          rcases List.mem_cons.mp hq with rfl | hq
          · exact grid.2 _ (by simp)
          · exact grid.1 q hq
        · exact fun q hq => grid.2 q (by simp [hl q hq])
      split at h
      · cases h; exact ⟨key [] _ (by simp) (by simp), Nat.le_refl _⟩
      · cases h; exact ⟨key rest s.cut (fun _ h => h) hnr.2, Nat.le_refl _⟩
  | take =>
    simp only [step] at h
    split at h
    · cases h
    · next j rest he =>
      cases h
      have hj := jobs j (by rw [he]; simp)
      refine ⟨⟨ver, ?_, ?_, chunks, ?_, done, ?_, nodup, pend, grid, range⟩, Nat.le_refl _⟩
      · exact fun k hk => jobs k (by rw [he]; simp [hk])
      · intro k hk
        rcases List.mem_cons.mp hk with rfl | hk
        · exact ⟨hj.1.le, hj.2⟩
        · exact busy k hk
      · intro hc
        have := (drain hc).2.2.1
        rw [he] at this; cases this
      · intro hd p
        have := count hd p
        rw [count_live, he] at this
        rw [count_live]
        simp only [List.filter_cons, hj.1, decide_true, if_true, List.map_cons, List.count_cons] at this ⊢
        omega
  | finish i =>
    simp only [step] at h
    split at h
    · cases h
    · next j he =>
      have hperm := eraseIdx_perm he
      have hmem : j ∈ s.busy := hperm.mem_iff.mpr (by simp)
      have hsub : ∀ k ∈ s.busy.eraseIdx i, k ∈ s.busy := fun k hk => hperm.mem_iff.mpr (by simp [hk])
      have hcnt : ∀ p, ((s.busy.filter fun j => j.gen = s.gen).map Job.pos).count p =
          (if j.gen = s.gen then (if j.pos = p then 1 else 0) else 0) + (((s.busy.eraseIdx i).filter fun j => j.gen = s.gen).map Job.pos).count p := by
        intro p
        rw [((hperm.filter _).map Job.pos).count_eq, List.filter_cons]
        by_cases hg : j.gen = s.gen
        · simp only [hg, decide_true, if_true, List.map_cons, List.count_cons, beq_iff_eq]; omega
        · simp [hg]
      split at h
      · next hv =>
        cases h
        have hg : j.gen = s.gen := ofNat_inj (Nat.lt_of_le_of_lt (busy j hmem).1 hb) hb (by rw [← (busy j hmem).2, hv, ver.2])
        refine ⟨⟨ver, jobs, fun k hk => busy k (hsub k hk), chunks, ?_, ?_, ?_, nodup, pend, grid, range⟩, Nat.le_refl _⟩
        · exact fun hc => absurd hg ((drain hc).2.2.2.2 j hmem)
        · intro hd k hk
          rcases List.mem_append.mp hk with hk | hk
          · exact done hd k hk
          · rw [List.mem_singleton] at hk; exact hk ▸ hg
        · intro hd p
          have h1 := count hd p
          have h2 := hcnt p
          rw [count_live] at h1 ⊢
          simp only [hg, if_true, List.map_append, List.map_cons, List.map_nil, List.count_append, List.count_cons, List.count_nil, beq_iff_eq] at h1 h2 ⊢
          omega
      · next hv =>
        cases h
        have hg : j.gen ≠ s.gen := fun hg => hv (by rw [(busy j hmem).2, hg, ver.2])
        refine ⟨⟨ver, jobs, fun k hk => busy k (hsub k hk), chunks, ?_, done, ?_, nodup, pend, grid, range⟩, Nat.le_refl _⟩
        · intro hc
          obtain ⟨d1, d2, d3, d4, d5⟩ := drain hc
          exact ⟨d1, d2, d3, d4, fun k hk => d5 k (hsub k hk)⟩
        · intro hd p
          have h1 := count hd p
          have h2 := hcnt p
          rw [count_live] at h1 ⊢
          simp only [hg, if_false] at h1 h2 ⊢
          omega

theorem run_inv {s s' : St} {ops : List Op} (hb : s'.gen < 2 ^ 32) (I : Inv s) (h : run s ops = some s') : Inv s' ∧ s.gen ≤ s'.gen := by
  have mono : ∀ (ops : List Op) (s : St), run s ops = some s' → s.gen ≤ s'.gen := by
    intro ops
    induction ops with
    | nil => intro s h; cases h; exact Nat.le_refl _
    | cons op ops ih =>
      intro s h
      simp only [run, Option.bind_eq_some_iff] at h
      obtain ⟨s1, h1, h2⟩ := h
      refine Nat.le_trans ?_ (ih s1 h2)
      cases op <;> simp only [step] at h1 <;> (repeat' split at h1) <;> simp only [Option.some.injEq, reduceCtorEq] at h1 <;> subst h1 <;> simp
  induction ops generalizing s with
  | nil => cases h; exact ⟨I, Nat.le_refl _⟩
  | cons op ops ih =>
    have h0 := h
    simp only [run, Option.bind_eq_some_iff] at h
    obtain ⟨s1, h1, h2⟩ := h
    obtain ⟨I1, g1⟩ := step_inv (Nat.lt_of_le_of_lt (mono _ _ h0) hb) I h1
    obtain ⟨I2, g2⟩ := ih I1 h2
    exact ⟨I2, Nat.le_trans g1 g2⟩

theorem init_inv (h : Bool) (n : Nat) : Inv { height := h, threads := n } := by
  refine ⟨⟨rfl, rfl⟩, by simp, by simp, by simp, by simp, by simp, fun _ p => by simp [live], by simp, by simp, by simp, by norm_num⟩

end FastNoise.Chunks
