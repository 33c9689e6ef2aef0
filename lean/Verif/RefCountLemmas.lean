import Verif.RefCount
import Mathlib.Algebra.Order.BigOperators.Group.Finset

/-! Invariant of the reference counting transition system. -/

namespace FastNoise.RefCount

variable {N T : Nat} {b : Prop}

theorem sum_upd {n : Nat} {α : Type} (f : Fin n → α) (w : α → Nat) (d : Fin n) (v : α) :
    (∑ i, w (Function.update f d v i)) + w (f d) = (∑ i, w (f i)) + w v := by
  have h1 : ∀ g : Fin n → α, (∑ i, w (g i)) = w (g d) + ∑ i ∈ Finset.univ.erase d, w (g i) := fun g =>
    (Finset.add_sum_erase _ (fun i => w (g i)) (Finset.mem_univ d)).symm
  rw [h1 f, h1 (Function.update f d v)]
  have h2 : ∑ i ∈ Finset.univ.erase d, w (Function.update f d v i) = ∑ i ∈ Finset.univ.erase d, w (f i) := by
    refine Finset.sum_congr rfl fun i hi => ?_
    rw [Function.update_of_ne (Finset.ne_of_mem_erase hi)]
  rw [h2, Function.update_self]
  omega

def ind (o : Obj) (p : Option Obj) : Nat := if p = some o then 1 else 0

theorem pointers_eq (s : St N T) (o : Obj) : pointers s o = ∑ d, ind o (s.ptr d) := rfl

theorem ind_le (o : Obj) (p : Option Obj) : ind o p ≤ 1 := by unfold ind; split <;> omega

theorem holds_le (o : Obj) (x : Todo N) : x.holds o ≤ 1 := by
  unfold Todo.holds; split <;> first | (split <;> omega) | omega

theorem sum_le_card {n : Nat} (f : Fin n → Nat) (h : ∀ i, f i ≤ 1) : (∑ i, f i) ≤ n := by
  calc (∑ i, f i) ≤ ∑ _i : Fin n, 1 := Finset.sum_le_sum fun i _ => h i
    _ = n := by simp

theorem refs_le (s : St N T) (o : Obj) : refs s o ≤ N + T := by
  unfold refs
  rw [pointers_eq]
  exact Nat.add_le_add (sum_le_card _ fun _ => ind_le _ _) (sum_le_card _ fun _ => holds_le _ _)

/-- Reference part of the invariant.  `b`: reference counts are only given up by `Release` (false once C handles are involved). -/
def Counts (b : Prop) (s : St N T) : Prop :=
  ∀ o, (s.life o = .live → s.cnt o = refs s o ∧ (b → 0 < refs s o)) ∧ (s.life o ≠ .live → refs s o = 0)

theorem ind_pos_le (s : St N T) (d : Fin N) (o : Obj) (h : s.ptr d = some o) : 0 < refs s o := by
  have : ind o (s.ptr d) ≤ ∑ d, ind o (s.ptr d) := Finset.single_le_sum (f := fun d => ind o (s.ptr d)) (fun _ _ => Nat.zero_le _) (Finset.mem_univ d)
  unfold refs; rw [pointers_eq]
  simp only [h, ind, if_true] at this ⊢
  omega

theorem holds_pos (s : St N T) (t : Fin T) (o : Obj) (h : 0 < (s.thr t).todo.holds o) : 0 < refs s o := by
  have : (s.thr t).todo.holds o ≤ ∑ t, (s.thr t).todo.holds o := Finset.single_le_sum (f := fun t => (s.thr t).todo.holds o) (fun _ _ => Nat.zero_le _) (Finset.mem_univ t)
  unfold refs; omega

theorem Counts.live {s : St N T} (h : Counts b s) {d : Fin N} {o : Obj} (hp : s.ptr d = some o) : s.life o = .live := by
  refine Decidable.byContradiction fun hl => ?_
  have := (h o).2 hl
  have := ind_pos_le s d o hp
  omega

theorem Counts.live_holds {s : St N T} (h : Counts b s) {t : Fin T} {o : Obj} (hp : 0 < (s.thr t).todo.holds o) :
    s.life o = .live := by
  refine Decidable.byContradiction fun hl => ?_
  have := (h o).2 hl
  have := holds_pos s t o hp
  omega

/-- `refs` depends only on the pointers and the unfinished assignments. -/
theorem refs_congr {s s' : St N T} (h1 : s'.ptr = s.ptr) (h2 : ∀ t o, (s'.thr t).todo.holds o = (s.thr t).todo.holds o) (o : Obj) :
    refs s' o = refs s o := by
  unfold refs pointers; rw [h1]; simp only [h2]

theorem refs_setPtr {s s' : St N T} (d : Fin N) (v : Option Obj) (h1 : s'.ptr = Function.update s.ptr d v)
    (h2 : ∀ t o, (s'.thr t).todo.holds o = (s.thr t).todo.holds o) (o : Obj) :
    refs s' o + ind o (s.ptr d) = refs s o + ind o v := by
  unfold refs; rw [pointers_eq, pointers_eq, h1]; simp only [h2]
  have := sum_upd s.ptr (ind o) d v
  omega

theorem refs_setTodo (s : St N T) (t : Fin T) (x : Todo N) (o : Obj) :
    refs (s.setTodo t x) o + (s.thr t).todo.holds o = refs s o + x.holds o := by
  have := sum_upd s.thr (fun (y : Thr N) => y.todo.holds o) t { s.thr t with todo := x }
  have e : refs (s.setTodo t x) o = pointers s o + ∑ i, (Function.update s.thr t { s.thr t with todo := x } i).todo.holds o := rfl
  have e2 : refs s o = pointers s o + ∑ i, (s.thr i).todo.holds o := rfl
  have e3 : ({ s.thr t with todo := x } : Thr N).todo.holds o = x.holds o := rfl
  rw [e3] at this
  omega

theorem holds_update_destr (s : St N T) (t : Fin T) (x : List (Obj × List (Fin N))) (u : Fin T) :
    ((Function.update s.thr t { s.thr t with destr := x }) u).todo = (s.thr u).todo := by
  by_cases h : u = t
  · subst h; simp
  · simp [Function.update_of_ne h]

/-! ### Release -/

/-- What `Release` does. -/
theorem release_shape {s s' : St N T} {t : Fin T} {d : Fin N} (h : release s t d = some s') :
    s.owner d ≠ .dead ∧ s'.ptr = Function.update s.ptr d none ∧ s'.owner = s.owner ∧ s'.members = s.members ∧
    (∀ u, (s'.thr u).todo = (s.thr u).todo) ∧
    ((s.ptr d = none ∧ s' = s) ∨
     ∃ o, s.ptr d = some o ∧ s.life o = .live ∧
       s'.cnt = Function.update s.cnt o ((s.cnt o + (2 ^ 32 - 1)) % 2 ^ 32) ∧
       ((s.cnt o ≠ 1 ∧ s'.life = s.life ∧ s'.thr = s.thr) ∨
        (s.cnt o = 1 ∧ s'.life = Function.update s.life o .dying ∧
          s'.thr = Function.update s.thr t { s.thr t with destr := (o, s.members o) :: (s.thr t).destr }))) := by
  unfold release at h
  split at h
  · cases h
  · next hd =>
    split at h
    · next hp =>
      cases h
      exact ⟨hd, by rw [Function.update_eq_self_iff.mpr hp.symm], rfl, rfl, fun _ => rfl, Or.inl ⟨hp, rfl⟩⟩
    · next o hp =>
      split at h
      · next hl =>
        simp only at h
        split at h
        · next hc =>
          cases h
          exact ⟨hd, rfl, rfl, rfl, holds_update_destr s t _, Or.inr ⟨o, hp, hl, rfl, Or.inr ⟨hc, rfl, rfl⟩⟩⟩
        · next hc =>
          cases h
          exact ⟨hd, rfl, rfl, rfl, fun _ => rfl, Or.inr ⟨o, hp, hl, rfl, Or.inl ⟨hc, rfl, rfl⟩⟩⟩
      · cases h

theorem release_some {s : St N T} {t : Fin T} {d : Fin N} (hc : Counts b s) (hd : s.owner d ≠ .dead) :
    ∃ s', release s t d = some s' := by
  unfold release
  rw [if_neg hd]
  split
  · exact ⟨_, rfl⟩
  · next o hp =>
    rw [if_pos (hc.live hp)]
    simp only
    split <;> exact ⟨_, rfl⟩

theorem release_counts {s s' : St N T} {t : Fin T} {d : Fin N} (hB : N + T < 2 ^ 32) (hc : Counts b s)
    (h : release s t d = some s') : Counts b s' := by
  obtain ⟨hd, h1, -, -, h2, h3⟩ := release_shape h
  rcases h3 with ⟨-, rfl⟩ | ⟨o, hp, hl, hcnt, h3⟩
  · exact hc
  · intro q
    have hr := refs_setPtr d none h1 (fun u o => by rw [h2 u]) q
    have hr' : ind q none = 0 := by simp [ind]
    have hq := hc q
    have ho := (hc o).1 hl
    have hb := refs_le s o
    by_cases e : q = o
    · subst e
      have hi : ind q (s.ptr d) = 1 := by simp [ind, hp]
      have hcq : s'.cnt q = (s.cnt q + (2 ^ 32 - 1)) % 2 ^ 32 := by rw [hcnt, Function.update_self]
      rcases h3 with ⟨hne, hlf, -⟩ | ⟨he, hlf, -⟩
      · rw [hlf]
        refine ⟨fun _ => ?_, fun hx => absurd hl hx⟩
        rw [hcq]
        have h0 := ho.1
        refine ⟨by omega, fun _ => by omega⟩
      · rw [hlf, Function.update_self]
        refine ⟨fun hx => by simp at hx, fun _ => by omega⟩
    · have hi : ind q (s.ptr d) = 0 := by simp [ind, hp]; exact fun hx => e hx.symm
      have hcq : s'.cnt q = s.cnt q := by rw [hcnt, Function.update_of_ne e]
      have hlq : s'.life q = s.life q := by
        rcases h3 with ⟨-, hlf, -⟩ | ⟨-, hlf, -⟩ <;> rw [hlf]
        rw [Function.update_of_ne e]
      have : refs s' q = refs s q := by omega
      rw [hlq, hcq, this]
      exact hq

theorem tryInc_shape {s s' : St N T} {p : Option Obj} (h : tryInc s p = some s') :
    s'.ptr = s.ptr ∧ s'.owner = s.owner ∧ s'.members = s.members ∧ s'.thr = s.thr ∧ s'.life = s.life ∧
    ((p = none ∧ s' = s) ∨ ∃ o, p = some o ∧ s.life o = .live ∧ s'.cnt = Function.update s.cnt o ((s.cnt o + 1) % 2 ^ 32)) := by
  unfold tryInc at h
  split at h
  · cases h; exact ⟨rfl, rfl, rfl, rfl, rfl, Or.inl ⟨rfl, rfl⟩⟩
  · split at h
    · next o hl => cases h; exact ⟨rfl, rfl, rfl, rfl, rfl, Or.inr ⟨o, rfl, hl, rfl⟩⟩
    · cases h

/-! ### The structural part of the invariant -/

/-- The target of an assignment by `t`. -/
def okTarget (s : St N T) (t : Fin T) (d : Fin N) : Option (Fin N) → Prop
  | none => s.owner d = .thr t
  | some h => s.memberVia t h d

def todoOK (s : St N T) (t : Fin T) (e : Option (Fin N)) : Todo N → Prop
  | .idle => True
  | .relAssign d x g pin => okTarget s t d pin ∧ s.ptr x = g ∧ x ≠ d ∧ s.isVar x
  | .finAssign d x g pin => okTarget s t d pin ∧ s.ptr x = g ∧ x ≠ d ∧ s.isVar x ∧ (s.ptr d = none ∨ e = some d)
  | .finTake d x => s.owner d = .thr t ∧ s.owner x = .thr t ∧ x ≠ d ∧ (s.ptr d = none ∨ e = some d)
  | .finEnd d => s.owner d = .thr t ∧ (s.ptr d = none ∨ e = some d)

def nfr (s : St N T) (o : Obj) : Nat := ∑ t : Fin T, ((s.thr t).destr.countP fun f => f.1 = o)

/-- Structural invariant; `e` is a variable about to be released. -/
structure Struct (s : St N T) (e : Option (Fin N)) : Prop where
  fr : ∀ o, nfr s o = if s.life o = .dying then 1 else 0
  frm : ∀ t o ms, (o, ms) ∈ (s.thr t).destr → ms.Nodup ∧ (∀ m ∈ ms, s.owner m = .mem o) ∧
    (∀ m, s.owner m = .mem o → m ∈ ms ∨ s.ptr m = none ∨ e = some m)
  own : ∀ m o, s.owner m = .mem o → s.life o = .live ∨ s.life o = .dying
  memb : ∀ o, s.life o = .live → (s.members o).Nodup ∧ ∀ m, m ∈ s.members o ↔ s.owner m = .mem o
  dead : ∀ m, s.owner m = .dead → s.ptr m = none
  todo : ∀ t, todoOK s t e (s.thr t).todo
  conf : ∀ t u, t ≠ u → ∀ x ∈ (s.thr t).todo.writes, x ∉ (s.thr u).todo.mentions

structure Inv (b : Prop) (s : St N T) : Prop where
  counts : Counts b s
  struct : Struct s none

/-- Variables an unfinished operation reads or relies on without being about to release them. -/
def Todo.reads : Todo N → List (Fin N)
  | .idle => []
  | .relAssign _ s _ pin => s :: pin.toList
  | .finAssign _ s _ pin => s :: pin.toList
  | .finTake _ s => [s]
  | .finEnd _ => []

theorem okTarget_congr {s s' : St N T} {t : Fin T} {d : Fin N} {pin : Option (Fin N)} (ho : s'.owner = s.owner)
    (hp : ∀ h ∈ pin, s'.ptr h = s.ptr h) (h : okTarget s t d pin) : okTarget s' t d pin := by
  cases pin with
  | none => simpa [okTarget, ho] using h
  | some x =>
    simp only [okTarget, St.memberVia, ho] at h ⊢
    rw [hp x (by simp)]
    exact h

theorem nfr_pos {s : St N T} {t : Fin T} {o : Obj} {ms : List (Fin N)} (h : (o, ms) ∈ (s.thr t).destr) : 0 < nfr s o := by
  have h1 : 0 < (s.thr t).destr.countP fun f => f.1 = o := List.countP_pos_iff.mpr ⟨_, h, by simp⟩
  have h2 : ((s.thr t).destr.countP fun f => f.1 = o) ≤ nfr s o :=
    Finset.single_le_sum (f := fun t => (s.thr t).destr.countP fun f => f.1 = o) (fun _ _ => Nat.zero_le _) (Finset.mem_univ t)
  omega

theorem Struct.dying {s : St N T} {e} (h : Struct s e) {t : Fin T} {o : Obj} {ms : List (Fin N)} (hm : (o, ms) ∈ (s.thr t).destr) :
    s.life o = .dying := by
  have h1 := nfr_pos hm
  have h2 := h.fr o
  refine Decidable.byContradiction fun hx => ?_
  rw [if_neg hx] at h2; omega

theorem nfr_update {s s' : St N T} {t : Fin T} {x : List (Obj × List (Fin N))}
    (h : s'.thr = Function.update s.thr t { s.thr t with destr := x }) (o : Obj) :
    nfr s' o + ((s.thr t).destr.countP fun f => f.1 = o) = nfr s o + x.countP fun f => f.1 = o := by
  have := sum_upd (fun u => s.thr u) (fun (y : Thr N) => y.destr.countP fun f => f.1 = o) t { s.thr t with destr := x }
  unfold nfr; rw [h]
  exact this

theorem nfr_congr {s s' : St N T} (h : ∀ t, (s'.thr t).destr = (s.thr t).destr) (o : Obj) : nfr s' o = nfr s o := by
  unfold nfr; simp only [h]

/-- Pointer changes do not matter to an unfinished operation that does not read them. -/
theorem todoOK_congr {s s' : St N T} {t : Fin T} {e e' : Option (Fin N)} {x : Todo N} (ho : s'.owner = s.owner)
    (hp : ∀ h ∈ x.reads, s'.ptr h = s.ptr h)
    (hd : ∀ d ∈ x.writes, (s.ptr d = none ∨ e = some d) → (s'.ptr d = none ∨ e' = some d)) (h : todoOK s t e x) :
    todoOK s' t e' x := by
  cases x with
  | idle => trivial
  | relAssign d y g pin =>
    obtain ⟨h1, h2, h3, h4⟩ := h
    refine ⟨okTarget_congr ho (fun q hq => hp q (by simp [Todo.reads]; exact Or.inr (by simpa using hq))) h1, ?_, h3, ?_⟩
    · rw [hp y (by simp [Todo.reads])]; exact h2
    · simpa [St.isVar, ho] using h4
  | finAssign d y g pin =>
    obtain ⟨h1, h2, h3, h4, h5⟩ := h
    refine ⟨okTarget_congr ho (fun q hq => hp q (by simp [Todo.reads]; exact Or.inr (by simpa using hq))) h1, ?_, h3, ?_, hd d (by simp [Todo.writes]) h5⟩
    · rw [hp y (by simp [Todo.reads])]; exact h2
    · simpa [St.isVar, ho] using h4
  | finTake d y =>
    obtain ⟨h1, h2, h3, h4⟩ := h
    exact ⟨by rw [ho]; exact h1, by rw [ho]; exact h2, h3, hd d (by simp [Todo.writes]) h4⟩
  | finEnd d =>
    obtain ⟨h1, h4⟩ := h
    exact ⟨by rw [ho]; exact h1, hd d (by simp [Todo.writes]) h4⟩

theorem release_struct {s s' : St N T} {t : Fin T} {d : Fin N} (hS : Struct s (some d))
    (hr : ∀ u, d ∉ (s.thr u).todo.reads) (h : release s t d = some s') : Struct s' none := by
  obtain ⟨hd, h1, h2, h3, h4, h5⟩ := release_shape h
  have hpn : ∀ m, (s.ptr m = none ∨ some d = some m) → s'.ptr m = none := by
    intro m hm
    rw [h1]
    by_cases e : m = d
    · subst e; simp
    · rw [Function.update_of_ne e]
      rcases hm with hm | hm
      · exact hm
      · exact absurd (Option.some.inj hm).symm e
  have hpr : ∀ m, m ≠ d → s'.ptr m = s.ptr m := fun m hm => by rw [h1, Function.update_of_ne hm]
  have htodo : ∀ u, todoOK s' u none (s'.thr u).todo := by
    intro u
    rw [h4 u]
    refine todoOK_congr h2 (fun q hq => hpr q fun e => hr u (e ▸ hq)) (fun q _ hq => Or.inl (hpn q ?_)) (hS.todo u)
    exact hq
  have hconf : ∀ a b, a ≠ b → ∀ x ∈ (s'.thr a).todo.writes, x ∉ (s'.thr b).todo.mentions := by
    intro a b hab; rw [h4 a, h4 b]; exact hS.conf a b hab
  have hdead : ∀ m, s'.owner m = .dead → s'.ptr m = none := by
    intro m hm; rw [h2] at hm; exact hpn m (Or.inl (hS.dead m hm))
  have hfrm : ∀ u o ms, (o, ms) ∈ (s.thr u).destr → ms.Nodup ∧ (∀ m ∈ ms, s'.owner m = .mem o) ∧
      (∀ m, s'.owner m = .mem o → m ∈ ms ∨ s'.ptr m = none ∨ none = some m) := by
    intro u o ms hm
    obtain ⟨a, b, c⟩ := hS.frm u o ms hm
    rw [h2]
    refine ⟨a, b, fun m hmo => ?_⟩
    rcases c m hmo with c | c
    · exact Or.inl c
    · exact Or.inr (Or.inl (hpn m c))
  rcases h5 with ⟨-, rfl⟩ | ⟨o, hp, hl, hcnt, h5⟩
  · exact ⟨hS.fr, hfrm, hS.own, hS.memb, hdead, htodo, hconf⟩
  · rcases h5 with ⟨hne, hlf, hth⟩ | ⟨he, hlf, hth⟩
    · refine ⟨?_, ?_, ?_, ?_, hdead, htodo, hconf⟩
      · intro q; rw [hlf, nfr_congr (s := s) (s' := s') (fun u => by rw [hth])]; exact hS.fr q
      · rw [hth]; exact hfrm
      · rw [h2, hlf]; exact hS.own
      · rw [h2, hlf, h3]; exact hS.memb
    · refine ⟨?_, ?_, ?_, ?_, hdead, htodo, hconf⟩
      · intro q
        have hn := nfr_update hth q
        rw [List.countP_cons] at hn
        have hq := hS.fr q
        rw [hlf]
        by_cases e : q = o
        · subst e
          rw [Function.update_self, if_pos rfl]
          simp only [hl] at hq
          simp at hq hn
          omega
        · rw [Function.update_of_ne e]
          have : (o == q) = false := by simpa using fun hx => e hx.symm
          simp [Ne.symm e] at hn
          rw [← hq]; omega
      · intro u q ms hm
        by_cases e : u = t
        · subst e
          rw [hth, Function.update_self] at hm
          rcases List.mem_cons.mp hm with hm | hm
          · cases hm
            obtain ⟨a, b⟩ := hS.memb o hl
            rw [h2]
            exact ⟨a, fun m hm => (b m).mp hm, fun m hm => Or.inl ((b m).mpr hm)⟩
          · exact hfrm _ _ _ hm
        · rw [hth, Function.update_of_ne e] at hm
          exact hfrm _ _ _ hm
      · intro m q hm
        rw [h2] at hm
        rw [hlf]
        by_cases e : q = o
        · subst e; simp
        · rw [Function.update_of_ne e]; exact hS.own m q hm
      · intro q hq
        rw [hlf] at hq
        by_cases e : q = o
        · subst e; simp at hq
        · rw [Function.update_of_ne e] at hq; rw [h3, h2]; exact hS.memb q hq

end FastNoise.RefCount
