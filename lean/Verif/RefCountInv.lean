import Verif.RefCountLemmas

/-! Every legal step is defined and preserves the invariant. -/

namespace FastNoise.RefCount

variable {N T : Nat} {b : Prop}

theorem todoOK_gen {s s' : St N T} {v : Fin T} {x : Todo N}
    (h1 : ∀ y, s.owner y = .thr v → s'.owner y = .thr v) (h2 : ∀ y, y ∈ x.reads → s.isVar y → s'.isVar y)
    (h3 : ∀ y o h, s.owner y = .mem o → s.ptr h = some o → s'.owner y = .mem o)
    (hp : ∀ h ∈ x.reads, s'.ptr h = s.ptr h)
    (hd : ∀ d ∈ x.writes, s.ptr d = none → s'.ptr d = none) (h : todoOK s v none x) : todoOK s' v none x := by
  have tgt : ∀ d pin, (∀ q ∈ pin, q ∈ x.reads) → okTarget s v d pin → okTarget s' v d pin := by
    intro d pin hq ht
    cases pin with
    | none => exact h1 d ht
    | some q =>
      obtain ⟨a, o, b, c⟩ := ht
      exact ⟨h1 q a, o, by rw [hp q (hq q (by simp))]; exact b, h3 d o q c b⟩
  have nn : ∀ d, d ∈ x.writes → (s.ptr d = none ∨ none = some d) → (s'.ptr d = none ∨ none = some d) := by
    intro d hdm hx
    rcases hx with hx | hx
    · exact Or.inl (hd d hdm hx)
    · cases hx
  cases x with
  | idle => trivial
  | relAssign d y g pin =>
    obtain ⟨a1, a2, a3, a4⟩ := h
    refine ⟨tgt d pin (fun q hq => by simp [Todo.reads]; exact Or.inr (by simpa using hq)) a1, ?_, a3, h2 y (by simp [Todo.reads]) a4⟩
    rw [hp y (by simp [Todo.reads])]; exact a2
  | finAssign d y g pin =>
    obtain ⟨a1, a2, a3, a4, a5⟩ := h
    refine ⟨tgt d pin (fun q hq => by simp [Todo.reads]; exact Or.inr (by simpa using hq)) a1, ?_, a3, h2 y (by simp [Todo.reads]) a4,
      nn d (by simp [Todo.writes]) a5⟩
    rw [hp y (by simp [Todo.reads])]; exact a2
  | finTake d y =>
    obtain ⟨a1, a2, a3, a4⟩ := h
    exact ⟨h1 d a1, h1 y a2, a3, nn d (by simp [Todo.writes]) a4⟩
  | finEnd d =>
    obtain ⟨a1, a4⟩ := h
    exact ⟨h1 d a1, nn d (by simp [Todo.writes]) a4⟩

theorem struct_gen {s s' : St N T} (hS : Struct s none) (hl : s'.life = s.life) (hm : s'.members = s.members)
    (hdes : ∀ u, (s'.thr u).destr = (s.thr u).destr)
    (hmem : ∀ m o, s'.owner m = .mem o ↔ s.owner m = .mem o)
    (hptr : ∀ m o, s.owner m = .mem o → s.life o = .dying → s.ptr m = none → s'.ptr m = none)
    (hdead : ∀ m, s'.owner m = .dead → s'.ptr m = none)
    (htodo : ∀ u, todoOK s' u none (s'.thr u).todo)
    (hconf : ∀ a b, a ≠ b → ∀ x ∈ (s'.thr a).todo.writes, x ∉ (s'.thr b).todo.mentions) : Struct s' none := by
  refine ⟨?_, ?_, ?_, ?_, hdead, htodo, hconf⟩
  · intro q; rw [hl, nfr_congr (s := s) (s' := s') hdes]; exact hS.fr q
  · intro u o ms hmm
    rw [hdes u] at hmm
    obtain ⟨a, b, c⟩ := hS.frm u o ms hmm
    have hdy := hS.dying hmm
    refine ⟨a, fun m h => (hmem m o).mpr (b m h), fun m h => ?_⟩
    rcases c m ((hmem m o).mp h) with c | c | c
    · exact Or.inl c
    · exact Or.inr (Or.inl (hptr m o ((hmem m o).mp h) hdy c))
    · cases c
  · intro m o h; rw [hl]; exact hS.own m o ((hmem m o).mp h)
  · intro o h
    rw [hl] at h
    obtain ⟨a, b⟩ := hS.memb o h
    rw [hm]
    exact ⟨a, fun m => (b m).trans (hmem m o).symm⟩

theorem counts_gen {s s' : St N T} (hC : Counts b s) (hl : s'.life = s.life) (hc : s'.cnt = s.cnt)
    (hr : ∀ o, refs s' o = refs s o) : Counts b s' := by
  intro o; rw [hl, hc, hr o]; exact hC o

/-- Writes are mentioned; reads are mentioned. -/
theorem writes_mentions {x : Todo N} {d : Fin N} (h : d ∈ x.writes) : d ∈ x.mentions := by
  cases x <;> simp [Todo.writes, Todo.mentions] at h ⊢ <;> first | exact h | exact Or.inl h
theorem reads_mentions {x : Todo N} {d : Fin N} (h : d ∈ x.reads) : d ∈ x.mentions := by
  cases x <;> simp [Todo.reads, Todo.mentions] at h ⊢ <;> first | exact h | exact Or.inr h

/-- Variables mentioned by unfinished operations exist. -/
theorem mentions_owned {s : St N T} {t : Fin T} {x : Todo N} {d : Fin N} {e} (h : todoOK s t e x) (hm : d ∈ x.mentions) :
    s.owner d ≠ .dead := by
  have tgt : ∀ d' pin, okTarget s t d' pin → s.owner d' ≠ .dead ∧ ∀ q ∈ pin, s.owner q ≠ .dead := by
    intro d' pin ht
    cases pin with
    | none => exact ⟨by rw [show s.owner d' = _ from ht]; simp, by simp⟩
    | some q =>
      obtain ⟨a, o, b, c⟩ := ht
      exact ⟨by rw [c]; simp, by intro q' hq; simp at hq; subst hq; rw [a]; simp⟩
  cases x with
  | idle => simp [Todo.mentions] at hm
  | relAssign d' y g pin =>
    obtain ⟨a1, a2, a3, v, a4⟩ := h
    simp only [Todo.mentions, List.mem_cons, Option.mem_toList] at hm
    rcases hm with rfl | rfl | hm
    · exact (tgt _ _ a1).1
    · rw [a4]; simp
    · exact (tgt _ _ a1).2 d hm
  | finAssign d' y g pin =>
    obtain ⟨a1, a2, a3, ⟨v, a4⟩, -⟩ := h
    simp only [Todo.mentions, List.mem_cons, Option.mem_toList] at hm
    rcases hm with rfl | rfl | hm
    · exact (tgt _ _ a1).1
    · rw [a4]; simp
    · exact (tgt _ _ a1).2 d hm
  | finTake d' y =>
    obtain ⟨a1, a2, -⟩ := h
    simp only [Todo.mentions, List.mem_cons, List.not_mem_nil, or_false] at hm
    rcases hm with rfl | rfl
    · rw [a1]; simp
    · rw [a2]; simp
  | finEnd d' =>
    obtain ⟨a1, -⟩ := h
    simp only [Todo.mentions, List.mem_cons, List.not_mem_nil, or_false] at hm
    subst hm; rw [a1]; simp

/-- Variables read by unfinished operations belong to threads. -/
theorem reads_var {s : St N T} {t : Fin T} {x : Todo N} {d : Fin N} {e} (h : todoOK s t e x) (hm : d ∈ x.reads) : s.isVar d := by
  have tgt : ∀ d' pin, okTarget s t d' pin → ∀ q ∈ pin, s.isVar q := by
    intro d' pin ht
    cases pin with
    | none => simp
    | some q =>
      obtain ⟨a, o, b, c⟩ := ht
      intro q' hq; simp at hq; subst hq; exact ⟨t, a⟩
  cases x with
  | idle => simp [Todo.reads] at hm
  | relAssign d' y g pin =>
    obtain ⟨a1, a2, a3, a4⟩ := h
    simp only [Todo.reads, List.mem_cons, Option.mem_toList] at hm
    rcases hm with rfl | hm
    · exact a4
    · exact tgt _ _ a1 d hm
  | finAssign d' y g pin =>
    obtain ⟨a1, a2, a3, a4, -⟩ := h
    simp only [Todo.reads, List.mem_cons, Option.mem_toList] at hm
    rcases hm with rfl | hm
    · exact a4
    · exact tgt _ _ a1 d hm
  | finTake d' y =>
    obtain ⟨a1, a2, -⟩ := h
    simp only [Todo.reads, List.mem_cons, List.not_mem_nil, or_false] at hm
    subst hm; exact ⟨t, a2⟩
  | finEnd d' => simp [Todo.reads] at hm

@[simp] theorem setTodo_thr (s : St N T) (t : Fin T) (x : Todo N) (u : Fin T) :
    ((s.setTodo t x).thr u).todo = if u = t then x else (s.thr u).todo := by
  unfold St.setTodo
  by_cases h : u = t
  · subst h; simp
  · simp [h]
@[simp] theorem setTodo_destr (s : St N T) (t : Fin T) (x : Todo N) (u : Fin T) :
    ((s.setTodo t x).thr u).destr = (s.thr u).destr := by
  unfold St.setTodo
  by_cases h : u = t
  · subst h; simp
  · simp [Function.update_of_ne h]
@[simp] theorem setTodo_ptr (s : St N T) (t : Fin T) (x : Todo N) : (s.setTodo t x).ptr = s.ptr := rfl
@[simp] theorem setTodo_owner (s : St N T) (t : Fin T) (x : Todo N) : (s.setTodo t x).owner = s.owner := rfl
@[simp] theorem setTodo_cnt (s : St N T) (t : Fin T) (x : Todo N) : (s.setTodo t x).cnt = s.cnt := rfl
@[simp] theorem setTodo_life (s : St N T) (t : Fin T) (x : Todo N) : (s.setTodo t x).life = s.life := rfl
@[simp] theorem setTodo_members (s : St N T) (t : Fin T) (x : Todo N) : (s.setTodo t x).members = s.members := rfl
@[simp] theorem setPtr_ptr (s : St N T) (d : Fin N) (p) : (s.setPtr d p).ptr = Function.update s.ptr d p := rfl
@[simp] theorem setPtr_owner (s : St N T) (d : Fin N) (p) : (s.setPtr d p).owner = s.owner := rfl
@[simp] theorem setPtr_cnt (s : St N T) (d : Fin N) (p) : (s.setPtr d p).cnt = s.cnt := rfl
@[simp] theorem setPtr_life (s : St N T) (d : Fin N) (p) : (s.setPtr d p).life = s.life := rfl
@[simp] theorem setPtr_members (s : St N T) (d : Fin N) (p) : (s.setPtr d p).members = s.members := rfl
@[simp] theorem setPtr_thr (s : St N T) (d : Fin N) (p) : (s.setPtr d p).thr = s.thr := rfl
@[simp] theorem setOwner_ptr (s : St N T) (d : Fin N) (p) : (s.setOwner d p).ptr = s.ptr := rfl
@[simp] theorem setOwner_owner (s : St N T) (d : Fin N) (p) : (s.setOwner d p).owner = Function.update s.owner d p := rfl
@[simp] theorem setOwner_cnt (s : St N T) (d : Fin N) (p) : (s.setOwner d p).cnt = s.cnt := rfl
@[simp] theorem setOwner_life (s : St N T) (d : Fin N) (p) : (s.setOwner d p).life = s.life := rfl
@[simp] theorem setOwner_members (s : St N T) (d : Fin N) (p) : (s.setOwner d p).members = s.members := rfl
@[simp] theorem setOwner_thr (s : St N T) (d : Fin N) (p) : (s.setOwner d p).thr = s.thr := rfl
@[simp] theorem setDestr_ptr (s : St N T) (t : Fin T) (x) : (s.setDestr t x).ptr = s.ptr := rfl
@[simp] theorem setDestr_owner (s : St N T) (t : Fin T) (x) : (s.setDestr t x).owner = s.owner := rfl
@[simp] theorem setDestr_cnt (s : St N T) (t : Fin T) (x) : (s.setDestr t x).cnt = s.cnt := rfl
@[simp] theorem setDestr_life (s : St N T) (t : Fin T) (x) : (s.setDestr t x).life = s.life := rfl
@[simp] theorem setDestr_members (s : St N T) (t : Fin T) (x) : (s.setDestr t x).members = s.members := rfl
@[simp] theorem freeObj_todo (s : St N T) (t : Fin T) (o : Obj) (x) (u) : ((freeObj s t o x).thr u).todo = (s.thr u).todo :=
  holds_update_destr s t x u
theorem freeObj_destr (s : St N T) (t : Fin T) (o : Obj) (x) : ((freeObj s t o x).thr t).destr = x := by simp [freeObj]
theorem freeObj_destr' (s : St N T) (t : Fin T) (o : Obj) (x) {u} (h : u ≠ t) : ((freeObj s t o x).thr u).destr = (s.thr u).destr := by
  simp [freeObj, Function.update_of_ne h]
theorem freeObj_owner (s : St N T) (t : Fin T) (o : Obj) (x) (d) :
    (freeObj s t o x).owner d = if s.owner d = .mem o then .dead else s.owner d := rfl
theorem freeObj_life (s : St N T) (t : Fin T) (o : Obj) (x) : (freeObj s t o x).life = Function.update s.life o .freed := rfl
@[simp] theorem setDestr_todo (s : St N T) (t : Fin T) (x) (u) : ((s.setDestr t x).thr u).todo = (s.thr u).todo :=
  holds_update_destr s t x u

/-- After an operation of `t` ends (or while it is idle) conflicts only concern others. -/
theorem conf_setTodo {s : St N T} (hS : ∀ a b, a ≠ b → ∀ x ∈ (s.thr a).todo.writes, x ∉ (s.thr b).todo.mentions) (t : Fin T) (x : Todo N)
    (hw : ∀ d ∈ x.writes, ∀ u, u ≠ t → d ∉ (s.thr u).todo.mentions)
    (hr : ∀ d ∈ x.mentions, ∀ u, u ≠ t → d ∉ (s.thr u).todo.writes) :
    ∀ a b, a ≠ b → ∀ y ∈ ((s.setTodo t x).thr a).todo.writes, y ∉ ((s.setTodo t x).thr b).todo.mentions := by
  intro a b hab y
  rw [setTodo_thr, setTodo_thr]
  split
  · next h => subst h; rw [if_neg (Ne.symm hab)]; exact fun hy => hw y hy b (Ne.symm hab)
  · next h =>
    split
    · next h2 => subst h2; exact fun hy hm => hr y hm a hab hy
    · exact hS a b hab y

theorem inv_init : Inv b (St.init : St N T) := by
  refine ⟨fun o => ⟨fun h => by simp [St.init] at h, fun _ => ?_⟩, ?_⟩
  · simp [refs, pointers, St.init, Todo.holds]
  · refine ⟨?_, ?_, ?_, ?_, ?_, ?_, ?_⟩ <;> intros <;> simp_all [St.init, nfr, todoOK, Todo.writes]

/-! ### Continuing an operation -/

theorem setTodo_update (s : St N T) (t : Fin T) (x : Todo N) :
    (s.setTodo t x).thr = Function.update s.thr t { s.thr t with todo := x } := rfl

theorem inv_run (hB : N + T < 2 ^ 32) {s : St N T} (hI : Inv b s) (t : Fin T) : ∃ s', run s t = some s' ∧ Inv b s' := by
  obtain ⟨hC, hS⟩ := hI
  unfold run
  split
  · -- free
    next o rest hde =>
    have hmem : (o, []) ∈ (s.thr t).destr := by rw [hde]; simp
    have hdy := hS.dying hmem
    rw [if_pos hdy]
    refine ⟨_, rfl, ?_, ?_⟩
    · intro q
      have hr : refs (freeObj s t o rest) q = refs s q := refs_congr (s := s) (s' := freeObj s t o rest) rfl (fun u o' => by rw [freeObj_todo]) q
      have hq := hC q
      rw [hr, freeObj_life]
      by_cases e : q = o
      · subst e
        exact ⟨fun h => by simp at h, fun _ => hq.2 (by rw [hdy]; simp)⟩
      · rw [Function.update_of_ne e]; exact hq
    · have hfr := hS.frm t o [] hmem
      have hn := nfr_update (s := s) (s' := freeObj s t o rest) rfl
      simp only [hde, List.countP_cons] at hn
      have hno : nfr (freeObj s t o rest) o = 0 := by
        have h1 := hn o
        have h2 := hS.fr o
        rw [if_pos hdy] at h2
        simp at h1
        have : nfr s o = 1 := h2
        have hx : (rest.countP fun f => decide (f.1 = o)) ≤ nfr (freeObj s t o rest) o := by
          have := Finset.single_le_sum (f := fun u => ((freeObj s t o rest).thr u).destr.countP fun f => decide (f.1 = o))
            (fun _ _ => Nat.zero_le _) (Finset.mem_univ t)
          rw [freeObj_destr] at this; exact this
        omega
      refine ⟨?_, ?_, ?_, ?_, ?_, ?_, ?_⟩
      · intro q
        rw [freeObj_life]
        by_cases e : q = o
        · subst e; rw [hno]; simp
        · have h1 := hn q
          rw [Function.update_of_ne e, ← hS.fr q]
          simp [Ne.symm e] at h1
          exact h1
      · intro u q ms hm
        have hqo : q ≠ o := by
          rintro rfl
          have := nfr_pos hm
          omega
        have hm' : (q, ms) ∈ (s.thr u).destr := by
          by_cases e : u = t
          · subst e; rw [freeObj_destr] at hm; rw [hde]; simp [hm]
          · rwa [freeObj_destr' _ _ _ _ e] at hm
        obtain ⟨a, b, c⟩ := hS.frm u q ms hm'
        refine ⟨a, fun m hmm => ?_, fun m hmm => ?_⟩
        · rw [freeObj_owner, b m hmm, if_neg]
          simpa using hqo
        · rw [freeObj_owner] at hmm
          split at hmm
          · cases hmm
          · exact c m hmm
      · intro m q hm
        rw [freeObj_owner] at hm
        split at hm
        · cases hm
        · next hne =>
          have : q ≠ o := fun e => hne (by rw [hm, e])
          rw [freeObj_life, Function.update_of_ne this]
          exact hS.own m q hm
      · intro q hq
        rw [freeObj_life] at hq
        have e : q ≠ o := by rintro rfl; simp at hq
        rw [Function.update_of_ne e] at hq
        obtain ⟨a, b⟩ := hS.memb q hq
        refine ⟨a, fun m => (b m).trans ?_⟩
        rw [freeObj_owner]
        constructor
        · intro h; rw [h, if_neg]; simpa using e
        · intro h; split at h
          · cases h
          · exact h
      · intro m hm
        rw [freeObj_owner] at hm
        split at hm
        · next hmo =>
          rcases hfr.2.2 m hmo with h | h | h
          · simp at h
          · exact h
          · cases h
        · exact hS.dead m hm
      · intro u
        rw [freeObj_todo]
        refine todoOK_gen (s := s) ?_ ?_ ?_ (fun _ _ => rfl) (fun _ _ h => h) (hS.todo u)
        · intro y hy; simp [freeObj_owner, hy]
        · rintro y - ⟨v, hv⟩; exact ⟨v, by simp [freeObj_owner, hv]⟩
        · intro y q h hy hh
          have : q ≠ o := by rintro rfl; have := hC.live hh; rw [hdy] at this; cases this
          simp [freeObj_owner, hy, this]
      · intro a b hab
        rw [freeObj_todo, freeObj_todo]
        exact hS.conf a b hab
  · -- next member
    next o m ms rest hde =>
    have hmem : (o, m :: ms) ∈ (s.thr t).destr := by rw [hde]; simp
    have hdy := hS.dying hmem
    obtain ⟨fa, fb, fc⟩ := hS.frm t o (m :: ms) hmem
    have hmo : s.owner m = .mem o := fb m (by simp)
    have hC1 : Counts b (s.setDestr t ((o, ms) :: rest)) :=
      counts_gen hC rfl rfl (refs_congr rfl fun u o => by rw [setDestr_todo])
    have hS1 : Struct (s.setDestr t ((o, ms) :: rest)) (some m) := by
      refine ⟨?_, ?_, hS.own, hS.memb, hS.dead, ?_, ?_⟩
      · intro q
        have hn := nfr_update (s := s) (s' := s.setDestr t ((o, ms) :: rest)) rfl q
        rw [hde] at hn
        simp only [List.countP_cons] at hn
        have : nfr (s.setDestr t ((o, ms) :: rest)) q = nfr s q := by omega
        rw [this]; exact hS.fr q
      · intro u q ms' hm
        by_cases e : u = t
        · subst e
          simp only [St.setDestr, Function.update_self, List.mem_cons] at hm
          rcases hm with hm | hm
          · cases hm
            refine ⟨(List.nodup_cons.mp fa).2, fun x hx => fb x (by simp [hx]), fun x hx => ?_⟩
            rcases fc x hx with h | h | h
            · rcases List.mem_cons.mp h with h | h
              · subst h; exact Or.inr (Or.inr rfl)
              · exact Or.inl h
            · exact Or.inr (Or.inl h)
            · cases h
          · obtain ⟨a, b, c⟩ := hS.frm u q ms' (by rw [hde]; simp [hm])
            refine ⟨a, b, fun x hx => ?_⟩
            rcases c x hx with h | h | h
            · exact Or.inl h
            · exact Or.inr (Or.inl h)
            · cases h
        · simp only [St.setDestr, Function.update_of_ne e] at hm
          obtain ⟨a, b, c⟩ := hS.frm u q ms' hm
          refine ⟨a, b, fun x hx => ?_⟩
          rcases c x hx with h | h | h
          · exact Or.inl h
          · exact Or.inr (Or.inl h)
          · cases h
      · intro u
        rw [setDestr_todo]
        refine todoOK_congr (s := s) (e := none) rfl (fun _ _ => rfl) ?_ (hS.todo u)
        rintro d - (h | h)
        · exact Or.inl h
        · cases h
      · intro a b hab
        rw [setDestr_todo, setDestr_todo]; exact hS.conf a b hab
    obtain ⟨s', hs'⟩ := release_some (t := t) (d := m) hC1 (by simp [hmo])
    refine ⟨s', hs', release_counts hB hC1 hs', release_struct hS1 ?_ hs'⟩
    intro u hu
    rw [setDestr_todo] at hu
    obtain ⟨v, hv⟩ := reads_var (hS.todo u) hu
    rw [hmo] at hv; cases hv
  · -- the operation underneath
    next hde =>
    have relCase : ∀ (x : Todo N) (d : Fin N), (∀ o, x.holds o = (s.thr t).todo.holds o) → x.writes = (s.thr t).todo.writes →
        x.mentions = (s.thr t).todo.mentions → d ∈ x.writes → d ∉ x.reads →
        todoOK (s.setTodo t x) t (some d) x → ∃ s', release (s.setTodo t x) t d = some s' ∧ Inv b s' := by
      intro x d hh hw hm hdw hdr hok
      have hC1 : Counts b (s.setTodo t x) := by
        refine counts_gen hC rfl rfl fun o => ?_
        have := refs_setTodo s t x o
        rw [hh o] at this; omega
      have hS1 : Struct (s.setTodo t x) (some d) := by
        refine ⟨?_, ?_, hS.own, hS.memb, hS.dead, ?_, ?_⟩
        · intro q; rw [nfr_congr (s := s) (fun u => by simp)]; exact hS.fr q
        · intro u q ms hmm
          rw [setTodo_destr] at hmm
          obtain ⟨a, b, c⟩ := hS.frm u q ms hmm
          refine ⟨a, b, fun m hx => ?_⟩
          rcases c m hx with h | h | h
          · exact Or.inl h
          · exact Or.inr (Or.inl h)
          · cases h
        · intro u
          rw [setTodo_thr]
          split
          · next h => subst h; exact hok
          · refine todoOK_congr (s := s) (e := none) rfl (fun _ _ => rfl) ?_ (hS.todo u)
            rintro q - (h | h)
            · exact Or.inl h
            · cases h
        · refine conf_setTodo hS.conf t x ?_ ?_
          · intro q hq u hu; rw [hw] at hq; exact hS.conf t u (Ne.symm hu) q hq
          · intro q hq u hu hq2; rw [hm] at hq; exact hS.conf u t hu q hq2 hq
      have hnd : s.owner d ≠ .dead := mentions_owned hok (writes_mentions hdw)
      obtain ⟨s', hs'⟩ := release_some (t := t) (d := d) hC1 hnd
      refine ⟨s', hs', release_counts hB hC1 hs', release_struct hS1 ?_ hs'⟩
      intro u hu
      rw [setTodo_thr] at hu
      split at hu
      · exact hdr hu
      · next h => exact hS.conf t u (Ne.symm h) d (hw ▸ hdw) (reads_mentions hu)
    have htd := hS.todo t
    split
    · exact ⟨s, rfl, hC, hS⟩
    · next d x g pin htt =>
      rw [htt] at htd
      obtain ⟨a1, a2, a3, a4⟩ := htd
      refine relCase (.finAssign d x g pin) d (by simp [htt, Todo.holds]) (by simp [htt, Todo.writes]) (by simp [htt, Todo.mentions])
        (by simp [Todo.writes]) ?_ ⟨a1, a2, a3, a4, Or.inr rfl⟩
      simp only [Todo.reads, List.mem_cons, Option.mem_toList, not_or]
      refine ⟨Ne.symm a3, fun h => ?_⟩
      have h' : pin = some d := h
      subst h'
      obtain ⟨b1, o, b2, b3⟩ := a1
      rw [b1] at b3; cases b3
    · next d x g pin htt =>
      rw [htt] at htd
      obtain ⟨a1, a2, a3, a4, a5⟩ := htd
      have hd0 : s.ptr d = none := by rcases a5 with h | h <;> [exact h; cases h]
      have hxo : s.owner x ≠ .dead := by obtain ⟨v, hv⟩ := a4; rw [hv]; simp
      have hdo : s.owner d ≠ .dead := mentions_owned (hS.todo t) (by rw [htt]; simp [Todo.mentions])
      rw [if_neg (by simp [hxo, hdo])]
      refine ⟨_, rfl, ?_, ?_⟩
      · refine counts_gen hC rfl rfl fun o => ?_
        have h1 := refs_setPtr (s := s) (s' := s.setPtr d (s.ptr x)) d (s.ptr x) rfl (fun _ _ => rfl) o
        have h2 := refs_setTodo (s.setPtr d (s.ptr x)) t .idle o
        simp only [setPtr_thr, htt, Todo.holds] at h2
        rw [hd0] at h1
        rw [← a2] at h2
        have h3 : ind o none = 0 := by simp [ind]
        have h4 : ind o (s.ptr x) = if s.ptr x = some o then 1 else 0 := rfl
        omega
      · refine struct_gen hS rfl rfl (fun u => by simp) (fun _ _ => Iff.rfl) ?_ ?_ ?_ ?_
        · intro m o hm hdy hp
          have : m ≠ d := by
            rintro rfl
            cases pin with
            | none => rw [show s.owner m = _ from a1] at hm; cases hm
            | some h =>
              obtain ⟨b1, o', b2, b3⟩ := a1
              rw [b3] at hm; cases hm
              have := hC.live b2; rw [hdy] at this; cases this
          simp [Function.update_of_ne this, hp]
        · intro m hm
          have : m ≠ d := by rintro rfl; exact hdo hm
          simpa [Function.update_of_ne this] using hS.dead m hm
        · intro u
          rw [setTodo_thr]
          split
          · trivial
          · next hu =>
            have hne : ∀ y ∈ (s.thr u).todo.mentions, y ≠ d := by
              rintro y hy rfl
              exact hS.conf t u (Ne.symm hu) y (by rw [htt]; simp [Todo.writes]) hy
            refine todoOK_gen (s := s) (fun _ h => h) (fun _ _ h => h) (fun _ _ _ h _ => h) ?_ ?_ (hS.todo u)
            · intro y hy; simp [Function.update_of_ne (hne y (reads_mentions hy))]
            · intro y hy hp; simp [Function.update_of_ne (hne y (writes_mentions hy)), hp]
        · exact conf_setTodo (s := s.setPtr d (s.ptr x)) hS.conf t .idle (by simp [Todo.writes]) (by simp [Todo.mentions])
    · next d x htt =>
      rw [htt] at htd
      obtain ⟨a1, a2, a3, a5⟩ := htd
      have hd0 : s.ptr d = none := by rcases a5 with h | h <;> [exact h; cases h]
      rw [if_neg (by simp [a1, a2])]
      have hw : d ∈ (s.thr t).todo.writes ∧ x ∈ (s.thr t).todo.writes := by rw [htt]; simp [Todo.writes]
      refine ⟨_, rfl, ?_, ?_⟩
      · refine counts_gen hC rfl rfl fun o => ?_
        have h1 := refs_setPtr (s := s) (s' := s.setPtr d (s.ptr x)) d (s.ptr x) rfl (fun _ _ => rfl) o
        have h2 := refs_setPtr (s := s.setPtr d (s.ptr x)) (s' := (s.setPtr d (s.ptr x)).setPtr x none) x none rfl (fun _ _ => rfl) o
        have h5 := refs_setTodo ((s.setPtr d (s.ptr x)).setPtr x none) t .idle o
        simp only [setPtr_thr, htt, Todo.holds] at h5
        rw [hd0] at h1
        rw [setPtr_ptr, Function.update_of_ne a3] at h2
        have h3 : ind o none = 0 := by simp [ind]
        omega
      · have hpm : ∀ m, m ≠ d → s.ptr m = none → (((s.setPtr d (s.ptr x)).setPtr x none).setTodo t .idle).ptr m = none := by
          intro m h1 h2
          simp only [setTodo_ptr, setPtr_ptr]
          by_cases e : m = x
          · subst e; simp
          · rw [Function.update_of_ne e, Function.update_of_ne h1]; exact h2
        refine struct_gen hS rfl rfl (fun u => by simp) (fun _ _ => Iff.rfl) ?_ ?_ ?_ ?_
        · intro m o hm _ hp
          exact hpm m (by rintro rfl; rw [a1] at hm; cases hm) hp
        · intro m hm
          exact hpm m (by rintro rfl; rw [show s.owner m = _ from hm] at a1; cases a1) (hS.dead m hm)
        · intro u
          rw [setTodo_thr]
          split
          · trivial
          · next hu =>
            have hne : ∀ y ∈ (s.thr u).todo.mentions, y ≠ d ∧ y ≠ x := by
              refine fun y hy => ⟨?_, ?_⟩
              · rintro rfl; exact hS.conf t u (Ne.symm hu) y hw.1 hy
              · rintro rfl; exact hS.conf t u (Ne.symm hu) y hw.2 hy
            refine todoOK_gen (s := s) (fun _ h => h) (fun _ _ h => h) (fun _ _ _ h _ => h) ?_ ?_ (hS.todo u)
            · intro y hy
              have := hne y (reads_mentions hy)
              simp [Function.update_of_ne this.1, Function.update_of_ne this.2]
            · intro y hy hp
              have := hne y (writes_mentions hy)
              simp [Function.update_of_ne this.1, Function.update_of_ne this.2, hp]
        · exact conf_setTodo (s := (s.setPtr d (s.ptr x)).setPtr x none) hS.conf t .idle (by simp [Todo.writes]) (by simp [Todo.mentions])
    · next d htt =>
      rw [htt] at htd
      obtain ⟨a1, a5⟩ := htd
      have hd0 : s.ptr d = none := by rcases a5 with h | h <;> [exact h; cases h]
      have hw : d ∈ (s.thr t).todo.writes := by rw [htt]; simp [Todo.writes]
      refine ⟨_, rfl, ?_, ?_⟩
      · refine counts_gen hC rfl rfl fun o => ?_
        have h5 := refs_setTodo (s.setOwner d .dead) t .idle o
        simp only [setOwner_thr, htt, Todo.holds] at h5
        exact h5
      · have how : ∀ m w, m ≠ d → ((((s.setOwner d .dead).setTodo t .idle).owner m = w) ↔ s.owner m = w) := by
          intro m w h
          simp only [setTodo_owner, setOwner_owner]
          rw [Function.update_of_ne h]
        refine struct_gen hS rfl rfl (fun u => by simp) ?_ (fun _ _ _ _ h => h) ?_ ?_ ?_
        · intro m o
          by_cases e : m = d
          · subst e; simp [a1]
          · exact how m _ e
        · intro m hm
          by_cases e : m = d
          · subst e; exact hd0
          · exact hS.dead m ((how m _ e).mp hm)
        · intro u
          rw [setTodo_thr]
          split
          · trivial
          · next hu =>
            refine todoOK_gen (s := s) ?_ ?_ ?_ (fun _ _ => rfl) (fun _ _ h => h) (hS.todo u)
            · intro y hy
              have e : y ≠ d := by rintro rfl; rw [a1] at hy; cases hy; exact hu rfl
              exact (how y _ e).mpr hy
            · rintro y hy ⟨v, hv⟩
              have e : y ≠ d := by rintro rfl; exact hS.conf t u (Ne.symm hu) y hw (reads_mentions hy)
              exact ⟨v, (how y _ e).mpr hv⟩
            · intro y q h hy _
              have e : y ≠ d := by rintro rfl; rw [a1] at hy; cases hy
              exact (how y _ e).mpr hy
        · exact conf_setTodo (s := s.setOwner d .dead) hS.conf t .idle (by simp [Todo.writes]) (by simp [Todo.mentions])

/-! ### Starting an operation -/

/-- Changing handles that no unfinished operation mentions. -/
theorem struct_edit {s s' : St N T} (hS : Struct s none) (hl : s'.life = s.life) (hm : s'.members = s.members)
    (hth : s'.thr = s.thr) (E : List (Fin N))
    (hE : ∀ d ∈ E, (∀ o, s.owner d ≠ .mem o) ∧ (∀ o, s'.owner d ≠ .mem o) ∧ ∀ u, d ∉ (s.thr u).todo.mentions)
    (hrest : ∀ d, d ∉ E → s'.owner d = s.owner d ∧ s'.ptr d = s.ptr d)
    (hdead : ∀ d ∈ E, s'.owner d = .dead → s'.ptr d = none) : Struct s' none := by
  have hne : ∀ u, ∀ y ∈ (s.thr u).todo.mentions, y ∉ E := fun u y hy hyE => (hE y hyE).2.2 u hy
  refine struct_gen hS hl hm (fun u => by rw [hth]) ?_ ?_ ?_ ?_ ?_
  · intro m o
    by_cases e : m ∈ E
    · exact ⟨fun h => absurd h ((hE m e).2.1 o), fun h => absurd h ((hE m e).1 o)⟩
    · rw [(hrest m e).1]
  · intro m o hmo _ hp
    have e : m ∉ E := fun e => (hE m e).1 o hmo
    rw [(hrest m e).2]; exact hp
  · intro m hmd
    by_cases e : m ∈ E
    · exact hdead m e hmd
    · rw [(hrest m e).1] at hmd; rw [(hrest m e).2]; exact hS.dead m hmd
  · intro u
    rw [hth]
    have h := hS.todo u
    have key : ∀ (x : Todo N), (∀ y ∈ x.mentions, y ∉ E) → todoOK s u none x → todoOK s' u none x := by
      intro x hx
      have tgt : ∀ d pin, d ∉ E → (∀ q ∈ pin, q ∉ E) → okTarget s u d pin → okTarget s' u d pin := by
        intro d pin h1 h2 h3
        cases pin with
        | none => simp only [okTarget] at h3 ⊢; rw [(hrest d h1).1]; exact h3
        | some q =>
          obtain ⟨a, o, b, c⟩ := h3
          have hq := hrest q (h2 q (by simp))
          exact ⟨by rw [hq.1]; exact a, o, by rw [hq.2]; exact b, by rw [(hrest d h1).1]; exact c⟩
      cases x with
      | idle => exact fun _ => trivial
      | relAssign d y g pin =>
        rintro ⟨a1, a2, a3, v, a4⟩
        have hy := hrest y (hx y (by simp [Todo.mentions]))
        refine ⟨tgt d pin (hx d (by simp [Todo.mentions])) (fun q hq => hx q ?_) a1, by rw [hy.2]; exact a2, a3, v, by rw [hy.1]; exact a4⟩
        simp only [Todo.mentions, List.mem_cons, Option.mem_toList]; exact Or.inr (Or.inr hq)
      | finAssign d y g pin =>
        rintro ⟨a1, a2, a3, ⟨v, a4⟩, a5⟩
        have hy := hrest y (hx y (by simp [Todo.mentions]))
        have hd := hrest d (hx d (by simp [Todo.mentions]))
        refine ⟨tgt d pin (hx d (by simp [Todo.mentions])) (fun q hq => hx q ?_) a1, by rw [hy.2]; exact a2, a3, ⟨v, by rw [hy.1]; exact a4⟩, by rw [hd.2]; exact a5⟩
        simp only [Todo.mentions, List.mem_cons, Option.mem_toList]; exact Or.inr (Or.inr hq)
      | finTake d y =>
        rintro ⟨a1, a2, a3, a4⟩
        have hy := hrest y (hx y (by simp [Todo.mentions]))
        have hd := hrest d (hx d (by simp [Todo.mentions]))
        exact ⟨by rw [hd.1]; exact a1, by rw [hy.1]; exact a2, a3, by rw [hd.2]; exact a4⟩
      | finEnd d =>
        rintro ⟨a1, a4⟩
        have hd := hrest d (hx d (by simp [Todo.mentions]))
        exact ⟨by rw [hd.1]; exact a1, by rw [hd.2]; exact a4⟩
    exact key _ (hne u) h
  · rw [hth]; exact hS.conf

theorem dead_unmentioned {s : St N T} (hS : Struct s none) {d : Fin N} (hd : s.owner d = .dead) (u : Fin T) :
    d ∉ (s.thr u).todo.mentions := fun h => mentions_owned (hS.todo u) h hd

theorem inv_tryInc (hB : N + T < 2 ^ 32) {s s0 s' : St N T} {p : Option Obj} (hC : Counts b s) (hS : Struct s0 none)
    (hr : ∀ o, refs s0 o = refs s o + ind o p) (hl : s0.life = s.life) (hc : s0.cnt = s.cnt)
    (h : tryInc s0 p = some s') : Inv b s' := by
  obtain ⟨h1, h2, h3, h4, h5, h6⟩ := tryInc_shape h
  have hr' : ∀ o, refs s' o = refs s0 o := fun o => refs_congr (s := s0) (s' := s') h1 (fun u q => by rw [h4]) o
  refine ⟨?_, ?_⟩
  · intro o
    rw [hr' o, hr o, h5, hl]
    have hb := refs_le s0 o
    rw [hr o] at hb
    rcases h6 with ⟨rfl, rfl⟩ | ⟨q, rfl, hql, hcn⟩
    · rw [hc]
      have : ind o none = 0 := by simp [ind]
      rw [this]
      exact hC o
    · rw [hcn, hc]
      by_cases e : o = q
      · subst e
        have hi : ind o (some o) = 1 := by simp [ind]
        rw [hi] at hb ⊢
        rw [hl] at hql
        have := (hC o).1 hql
        rw [Function.update_self]
        refine ⟨fun _ => ⟨?_, by omega⟩, fun hx => absurd hql hx⟩
        rw [this.1]; omega
      · have hi : ind o (some q) = 0 := by simp [ind]; exact fun h => e h.symm
        rw [hi, Function.update_of_ne e]
        exact hC o
  · refine struct_gen hS h5 h3 (fun u => by rw [h4]) (fun m o => by rw [h2]) (fun m o _ _ h => by rw [h1]; exact h)
      (fun m hm => by rw [h1]; rw [h2] at hm; exact hS.dead m hm) ?_ (by rw [h4]; exact hS.conf)
    intro u
    rw [h4]
    exact todoOK_gen (s := s0) (fun y h => by rw [h2]; exact h) (fun y _ h => by rw [St.isVar, h2]; exact h)
      (fun y o h hy _ => by rw [h2]; exact hy) (fun y _ => by rw [h1]) (fun y _ h => by rw [h1]; exact h) (hS.todo u)

theorem tryInc_some {s0 : St N T} {p : Option Obj} (h : ∀ o, p = some o → s0.life o = .live) : ∃ s', tryInc s0 p = some s' := by
  unfold tryInc
  split
  · exact ⟨_, rfl⟩
  · next o => rw [if_pos (h o rfl)]; exact ⟨_, rfl⟩

theorem inv_copyAssign (hB : N + T < 2 ^ 32) {s : St N T} (hI : Inv b s) (t : Fin T) (d x : Fin N) (pin : Option (Fin N))
    (hi : s.idle t) (ht : okTarget s t d pin) (hud : s.untouched d) (hx : s.isVar x) (hux : s.unwritten x)
    (hp : ∀ h ∈ pin, s.unwritten h) :
    ∃ s', exec s t (.copyAssign d x pin) = some s' ∧ Inv b s' := by
  obtain ⟨hC, hS⟩ := hI
  have hxo : s.owner x ≠ .dead := by obtain ⟨v, hv⟩ := hx; rw [hv]; simp
  have hdo : s.owner d ≠ .dead := by
    cases pin with
    | none => rw [show s.owner d = _ from ht]; simp
    | some h => obtain ⟨_, o, _, c⟩ := ht; rw [c]; simp
  simp only [exec]
  rw [if_neg (by simp [hxo, hdo])]
  split
  · exact ⟨s, rfl, hC, hS⟩
  · next hne =>
    have hxd : x ≠ d := by rintro rfl; exact hne rfl
    obtain ⟨s', hs'⟩ := tryInc_some (s0 := s.setTodo t (.relAssign d x (s.ptr x) pin)) (p := s.ptr x) (fun o ho => hC.live ho)
    refine ⟨s', hs', inv_tryInc hB (s := s) (h := hs') hC ?_ ?_ (by rfl) (by rfl)⟩
    · refine struct_gen hS rfl rfl (fun u => by simp) (fun _ _ => Iff.rfl) (fun _ _ _ _ h => h) hS.dead ?_ ?_
      · intro u
        rw [setTodo_thr]
        split
        · next h => subst h; exact ⟨ht, rfl, hxd, hx⟩
        · exact hS.todo u
      · refine conf_setTodo hS.conf t _ ?_ ?_
        · intro q hq u _
          simp only [Todo.writes, List.mem_singleton] at hq
          subst hq; exact hud u
        · intro q hq u _ hq2
          simp only [Todo.mentions, List.mem_cons, Option.mem_toList] at hq
          rcases hq with rfl | rfl | hq
          · exact hud u (writes_mentions hq2)
          · exact hux u hq2
          · exact hp q hq u hq2
    · intro o
      have := refs_setTodo s t (.relAssign d x (s.ptr x) pin) o
      rw [hi.2] at this
      exact this

theorem inv_release_start (hB : N + T < 2 ^ 32) {s : St N T} (hI : Inv b s) (t : Fin T) (d : Fin N) (x : Todo N)
    (hi : s.idle t) (hd : s.owner d = .thr t) (hh : ∀ o, x.holds o = 0) (hdr : d ∉ x.reads)
    (hok : todoOK s t (some d) x) (hm : ∀ q ∈ x.mentions, s.untouched q) (hud : s.untouched d) :
    ∃ s', release (s.setTodo t x) t d = some s' ∧ Inv b s' := by
  obtain ⟨hC, hS⟩ := hI
  have hC1 : Counts b (s.setTodo t x) := by
    refine counts_gen hC rfl rfl fun o => ?_
    have := refs_setTodo s t x o
    rw [hh o, hi.2] at this
    exact this
  have hS1 : Struct (s.setTodo t x) (some d) := by
    refine ⟨?_, ?_, hS.own, hS.memb, hS.dead, ?_, ?_⟩
    · intro q; rw [nfr_congr (s := s) (fun u => by simp)]; exact hS.fr q
    · intro u q ms hmm
      rw [setTodo_destr] at hmm
      obtain ⟨a, b, c⟩ := hS.frm u q ms hmm
      refine ⟨a, b, fun m hx => ?_⟩
      rcases c m hx with h | h | h
      · exact Or.inl h
      · exact Or.inr (Or.inl h)
      · cases h
    · intro u
      rw [setTodo_thr]
      split
      · next h => subst h; exact hok
      · refine todoOK_congr (s := s) (e := none) rfl (fun _ _ => rfl) ?_ (hS.todo u)
        rintro q - (h | h)
        · exact Or.inl h
        · cases h
    · refine conf_setTodo hS.conf t x ?_ ?_
      · intro q hq u _; exact hm q (writes_mentions hq) u
      · intro q hq u _ hq2; exact hm q hq u (writes_mentions hq2)
  obtain ⟨s', hs'⟩ := release_some (t := t) (d := d) hC1 (by simp [hd])
  refine ⟨s', hs', release_counts hB hC1 hs', release_struct hS1 ?_ hs'⟩
  intro u hu
  rw [setTodo_thr] at hu
  split at hu
  · exact hdr hu
  · exact hud u (reads_mentions hu)

theorem inv_new {s : St N T} (hI : Inv b s) (t : Fin T) (d : Fin N) (o : Obj) (ms : List (Fin N))
    (hd : s.owner d = .dead) (hu : s.life o = .unborn) (hnd : ms.Nodup) (hdm : d ∉ ms) (hms : ∀ m ∈ ms, s.owner m = .dead) :
    ∃ s', exec s t (.new d o ms) = some s' ∧ Inv b s' := by
  obtain ⟨hC, hS⟩ := hI
  simp only [exec]
  refine ⟨_, rfl, ?_⟩
  generalize hs' : (St.mk (N := N) (T := T) _ _ _ _ _ _) = s'
  have hptr : ∀ x, s'.ptr x = if x = d then some o else if x ∈ ms then none else s.ptr x := by intro x; rw [← hs']
  have hown : ∀ x, s'.owner x = if x = d then .thr t else if x ∈ ms then .mem o else s.owner x := by intro x; rw [← hs']
  have hlife : s'.life = Function.update s.life o .live := by rw [← hs']
  have hcnt : s'.cnt = Function.update s.cnt o 1 := by rw [← hs']; rfl
  have hmem : s'.members = Function.update s.members o ms := by rw [← hs']
  have hth : s'.thr = s.thr := by rw [← hs']
  clear hs'
  have hp2 : s'.ptr = Function.update s.ptr d (some o) := by
    funext x
    rw [hptr]
    by_cases e : x = d
    · subst e; simp
    · rw [if_neg e, Function.update_of_ne e]
      split
      · next h => exact (hS.dead x (hms x h)).symm
      · rfl
  have hr := refs_setPtr (s := s) (s' := s') d (some o) hp2 (fun u q => by rw [hth])
  simp only [hS.dead d hd] at hr
  have h0 : ∀ q, ind q none = 0 := by simp [ind]
  have hro : refs s o = 0 := (hC o).2 (by rw [hu]; simp)
  have hnm : ∀ m, s.owner m ≠ .mem o := by
    intro m hm
    rcases hS.own m o hm with h | h <;> rw [hu] at h <;> cases h
  have hold : ∀ x, s.owner x ≠ .dead → s'.owner x = s.owner x ∧ s'.ptr x = s.ptr x := by
    intro x hx
    have h1 : x ≠ d := by rintro rfl; exact hx hd
    have h2 : x ∉ ms := fun h => hx (hms x h)
    rw [hown, hptr]; simp [h1, h2]
  refine ⟨?_, ?_⟩
  · intro q
    have hq := hr q
    rw [h0 q] at hq
    rw [hlife, hcnt]
    by_cases e : q = o
    · subst e
      have : ind q (some q) = 1 := by simp [ind]
      rw [Function.update_self, Function.update_self]
      exact ⟨fun _ => by omega, fun h => absurd rfl h⟩
    · have : ind q (some o) = 0 := by simp [ind]; exact fun h => e h.symm
      rw [Function.update_of_ne e, Function.update_of_ne e]
      have e2 : refs s' q = refs s q := by omega
      rw [e2]; exact hC q
  · refine ⟨?_, ?_, ?_, ?_, ?_, ?_, ?_⟩
    · intro q
      rw [nfr_congr (s := s) (s' := s') (fun u => by rw [hth]), hS.fr q, hlife]
      by_cases e : q = o
      · subst e; simp [hu]
      · rw [Function.update_of_ne e]
    · intro u q ms' hm
      rw [hth] at hm
      obtain ⟨a, b, c⟩ := hS.frm u q ms' hm
      have hdy := hS.dying hm
      have hqo : q ≠ o := by rintro rfl; rw [hu] at hdy; cases hdy
      refine ⟨a, fun m h => ?_, fun m h => ?_⟩
      · have := b m h
        rw [(hold m (by rw [this]; simp)).1]; exact this
      · have hmo : s.owner m = .mem q := by
          rw [hown] at h
          split at h
          · cases h
          · split at h
            · cases h; exact absurd rfl hqo
            · exact h
        rw [(hold m (by rw [hmo]; simp)).2]
        exact c m hmo
    · intro m q h
      rw [hown] at h
      rw [hlife]
      by_cases e : q = o
      · subst e; simp
      · rw [Function.update_of_ne e]
        split at h
        · cases h
        · split at h
          · cases h; exact absurd rfl e
          · exact hS.own m q h
    · intro q hq
      rw [hlife] at hq
      rw [hmem]
      by_cases e : q = o
      · subst e
        rw [Function.update_self]
        refine ⟨hnd, fun m => ?_⟩
        rw [hown]
        constructor
        · intro h
          rw [if_neg (by rintro rfl; exact hdm h), if_pos h]
        · intro h
          split at h
          · cases h
          · split at h
            · next h2 => exact h2
            · exact absurd h (hnm m)
      · rw [Function.update_of_ne e] at hq ⊢
        obtain ⟨a, b⟩ := hS.memb q hq
        refine ⟨a, fun m => (b m).trans ⟨fun h => ?_, fun h => ?_⟩⟩
        · rw [(hold m (by rw [h]; simp)).1]; exact h
        · rw [hown] at h
          split at h
          · cases h
          · split at h
            · cases h; exact absurd rfl e
            · exact h
    · intro m h
      rw [hown] at h
      rw [hptr]
      split at h
      · cases h
      · next h1 =>
        split at h
        · cases h
        · next h2 => rw [if_neg h1, if_neg h2]; exact hS.dead m h
    · intro u
      rw [hth]
      refine todoOK_gen (s := s) ?_ ?_ ?_ ?_ ?_ (hS.todo u)
      · intro y hy; rw [(hold y (by rw [hy]; simp)).1]; exact hy
      · rintro y - ⟨v, hv⟩; exact ⟨v, by rw [(hold y (by rw [hv]; simp)).1]; exact hv⟩
      · intro y q h hy _; rw [(hold y (by rw [hy]; simp)).1]; exact hy
      · intro y hy; exact (hold y (mentions_owned (hS.todo u) (reads_mentions hy))).2
      · intro y hy hp; rw [(hold y (mentions_owned (hS.todo u) (writes_mentions hy))).2]; exact hp
    · rw [hth]; exact hS.conf

theorem inv_copyCtor (hB : N + T < 2 ^ 32) {s : St N T} (hI : Inv b s) (t : Fin T) (d x : Fin N) (pin : Option (Fin N))
    (hd : s.owner d = .dead) (hx : s.owner x ≠ .dead) : ∃ s', exec s t (.copyCtor d x pin) = some s' ∧ Inv b s' := by
  obtain ⟨hC, hS⟩ := hI
  simp only [exec]
  rw [if_neg hx]
  obtain ⟨s', hs'⟩ := tryInc_some (s0 := (s.setOwner d (.thr t)).setPtr d (s.ptr x)) (p := s.ptr x) (fun o ho => hC.live ho)
  refine ⟨s', hs', inv_tryInc hB (s := s) (h := hs') hC ?_ ?_ (by rfl) (by rfl)⟩
  · refine struct_edit hS rfl rfl rfl [d] ?_ ?_ ?_
    · intro q hq
      simp only [List.mem_singleton] at hq; subst hq
      exact ⟨by simp [hd], by simp, dead_unmentioned hS hd⟩
    · intro q hq
      simp only [List.mem_singleton] at hq
      simp [Function.update_of_ne hq]
    · intro q hq
      simp only [List.mem_singleton] at hq; subst hq; simp
  · intro o
    have := refs_setPtr (s := s) (s' := (s.setOwner d (.thr t)).setPtr d (s.ptr x)) d (s.ptr x) rfl (fun _ _ => rfl) o
    rw [hS.dead d hd] at this
    have h0 : ind o none = 0 := by simp [ind]
    omega

/-- Every legal step is defined and keeps the invariant. -/
theorem inv_step (hB : N + T < 2 ^ 32) {s : St N T} (hI : Inv b s) (t : Fin T) (a : Act N T) (hl : legal s t a) :
    ∃ s', exec s t a = some s' ∧ Inv b s' := by
  have hC := hI.counts
  have hS := hI.struct
  cases a with
  | declare d =>
    obtain ⟨_, hd⟩ := hl
    refine ⟨_, rfl, counts_gen hC rfl rfl (refs_congr rfl fun _ _ => rfl), ?_⟩
    refine struct_edit hS rfl rfl rfl [d] ?_ ?_ ?_
    · intro q hq
      simp only [List.mem_singleton] at hq; subst hq
      exact ⟨by simp [hd], by simp, dead_unmentioned hS hd⟩
    · intro q hq
      simp only [List.mem_singleton] at hq
      simp [Function.update_of_ne hq]
    · intro q hq
      simp only [List.mem_singleton] at hq; subst hq; simp
  | new d o ms =>
    obtain ⟨_, h1, h2, h3, h4, h5⟩ := hl
    exact inv_new hI t d o ms h1 h2 h3 h4 h5
  | copyCtor d x pin =>
    cases pin with
    | none =>
      obtain ⟨_, h1, ⟨v, hv⟩, _⟩ := hl
      exact inv_copyCtor hB hI t d x none h1 (by rw [hv]; simp)
    | some h =>
      obtain ⟨_, h1, ⟨_, o, _, hv⟩, _⟩ := hl
      exact inv_copyCtor hB hI t d x (some h) h1 (by rw [hv]; simp)
  | moveCtor d x =>
    obtain ⟨_, hd, hx, hux⟩ := hl
    have hxd : x ≠ d := by rintro rfl; rw [hd] at hx; cases hx
    simp only [exec]
    rw [if_neg (by rw [hx]; simp)]
    refine ⟨_, rfl, counts_gen hC rfl rfl fun o => ?_, ?_⟩
    · have h1 := refs_setPtr (s := s) (s' := (s.setOwner d (.thr t)).setPtr d (s.ptr x)) d (s.ptr x) rfl (fun _ _ => rfl) o
      have h2 := refs_setPtr (s := (s.setOwner d (.thr t)).setPtr d (s.ptr x))
        (s' := ((s.setOwner d (.thr t)).setPtr d (s.ptr x)).setPtr x none) x none rfl (fun _ _ => rfl) o
      rw [hS.dead d hd] at h1
      rw [setPtr_ptr, setOwner_ptr, Function.update_of_ne hxd] at h2
      have h0 : ind o none = 0 := by simp [ind]
      omega
    · refine struct_edit hS rfl rfl rfl [d, x] ?_ ?_ ?_
      · intro q hq
        simp only [List.mem_cons, List.not_mem_nil, or_false] at hq
        rcases hq with rfl | rfl
        · exact ⟨by simp [hd], by simp, dead_unmentioned hS hd⟩
        · exact ⟨by simp [hx], by simp [Function.update_of_ne hxd, hx], hux⟩
      · intro q hq
        simp only [List.mem_cons, List.not_mem_nil, or_false, not_or] at hq
        simp [Function.update_of_ne hq.1, Function.update_of_ne hq.2]
      · intro q hq
        simp only [List.mem_cons, List.not_mem_nil, or_false] at hq
        rcases hq with rfl | rfl
        · simp
        · simp
  | copyAssign d x pin =>
    cases pin with
    | none =>
      obtain ⟨h1, h2, h3, h4, h5⟩ := hl
      exact inv_copyAssign hB hI t d x none h1 h2 h3 h4 h5 (by simp)
    | some h =>
      obtain ⟨h1, h2, h3, h6, h4, h5⟩ := hl
      exact inv_copyAssign hB hI t d x (some h) h1 h2 h3 h4 h5 (by simpa using h6)
  | swapAssign d x =>
    obtain ⟨_, hd, hud, hx, hux⟩ := hl
    simp only [exec]
    rw [if_neg (by simp [hx, hd])]
    refine ⟨_, rfl, counts_gen hC rfl rfl fun o => ?_, ?_⟩
    · have h1 := refs_setPtr (s := s) (s' := s.setPtr d (s.ptr x)) d (s.ptr x) rfl (fun _ _ => rfl) o
      have h2 := refs_setPtr (s := s.setPtr d (s.ptr x))
        (s' := (s.setPtr d (s.ptr x)).setPtr x (s.ptr d)) x (s.ptr d) rfl (fun _ _ => rfl) o
      have h3 : (s.setPtr d (s.ptr x)).ptr x = s.ptr x := by
        rw [setPtr_ptr]
        by_cases e : x = d
        · subst e; simp
        · rw [Function.update_of_ne e]
      rw [h3] at h2
      omega
    · refine struct_edit hS rfl rfl rfl [d, x] ?_ ?_ ?_
      · intro q hq
        simp only [List.mem_cons, List.not_mem_nil, or_false] at hq
        rcases hq with rfl | rfl
        · exact ⟨by simp [hd], by simp [hd], hud⟩
        · exact ⟨by simp [hx], by simp [hx], hux⟩
      · intro q hq
        simp only [List.mem_cons, List.not_mem_nil, or_false, not_or] at hq
        simp [Function.update_of_ne hq.1, Function.update_of_ne hq.2]
      · intro q hq
        simp only [List.mem_cons, List.not_mem_nil, or_false] at hq
        rcases hq with rfl | rfl
        · simp [hd]
        · simp [hx]
  | takeAssign d x =>
    obtain ⟨hi, hd, hud, hx, hux, hne⟩ := hl
    simp only [exec]
    rw [if_neg (by simp [hx, hd])]
    split
    · exact ⟨s, rfl, hI⟩
    · refine inv_release_start hB hI t d (.finTake d x) hi hd (fun _ => rfl) (by simp [Todo.reads, hne])
        ⟨hd, hx, Ne.symm hne, Or.inr rfl⟩ ?_ hud
      intro q hq
      simp only [Todo.mentions, List.mem_cons, List.not_mem_nil, or_false] at hq
      rcases hq with rfl | rfl
      · exact hud
      · exact hux
  | destroy d =>
    obtain ⟨hi, hd, hud⟩ := hl
    refine inv_release_start hB hI t d (.finEnd d) hi hd (fun _ => rfl) (by simp [Todo.reads]) ⟨hd, Or.inr rfl⟩ ?_ hud
    intro q hq
    simp only [Todo.mentions, List.mem_cons, List.not_mem_nil, or_false] at hq
    subst hq; exact hud
  | use h =>
    obtain ⟨_, ⟨v, hv⟩, _, hp⟩ := hl
    simp only [exec]
    rw [if_neg (by rw [hv]; simp)]
    cases hh : s.ptr h with
    | none => exact absurd hh hp
    | some o =>
      refine ⟨s, ?_, hI⟩
      simp only
      rw [if_pos (hC.live hh)]
  | give d u =>
    obtain ⟨hi, hd⟩ := hl
    refine ⟨_, rfl, counts_gen hC rfl rfl (refs_congr rfl fun _ _ => rfl), ?_⟩
    have how : ∀ m w, m ≠ d → (((s.setOwner d (.thr u)).owner m = w) ↔ s.owner m = w) := by
      intro m w h
      simp only [setOwner_owner]
      rw [Function.update_of_ne h]
    refine struct_gen hS rfl rfl (fun _ => rfl) ?_ (fun _ _ _ _ h => h) ?_ ?_ hS.conf
    · intro m o
      by_cases e : m = d
      · subst e; simp [hd]
      · exact how m _ e
    · intro m hm
      by_cases e : m = d
      · subst e; simp at hm
      · exact hS.dead m ((how m _ e).mp hm)
    · intro v
      rw [setOwner_thr]
      by_cases hvt : v = t
      · subst hvt; rw [hi.2]; trivial
      · refine todoOK_gen (s := s) ?_ ?_ ?_ (fun _ _ => rfl) (fun _ _ h => h) (hS.todo v)
        · intro y hy
          have e : y ≠ d := by rintro rfl; rw [hd] at hy; cases hy; exact hvt rfl
          exact (how y _ e).mpr hy
        · rintro y _ ⟨w, hw⟩
          by_cases e : y = d
          · subst e; exact ⟨u, by simp⟩
          · exact ⟨w, (how y _ e).mpr hw⟩
        · intro y q _ hy _
          have e : y ≠ d := by rintro rfl; rw [hd] at hy; cases hy
          exact (how y _ e).mpr hy
  | run => exact inv_run hB hI t

theorem reach_inv (hB : N + T < 2 ^ 32) {s : St N T} (h : Reach s) : Inv b s := by
  induction h with
  | init => exact inv_init
  | step t a _ hl he ih =>
    obtain ⟨s', h1, h2⟩ := inv_step hB ih t a hl
    rw [h1] at he; cases he; exact h2

end FastNoise.RefCount
