import Verif.Queues
import Mathlib.Tactic.Tauto

/-! # C21, C22: work queues of the node editor -/

namespace FastNoise.Queues

variable {α : Type}

/-- The values handed out by `Pop`, in order. -/
def poppedValues : List (GEv α) → List α
  | [] => []
  | .got _ v :: es => v :: poppedValues es
  | _ :: es => poppedValues es

/-- The values given to `Push`, in order. -/
def pushedValues : List (GOp α) → List α
  | [] => []
  | .push v :: ops => v :: pushedValues ops
  | _ :: ops => pushedValues ops

/-- Helper: a step either pushes, pops the front, clears, or leaves the items alone. -/
theorem gstep_items {s s' : GQ α} {op : GOp α} {e : GEv α} (h : gstep s op = some (s', e)) :
    (∃ v, op = .push v ∧ s'.items = s.items ++ [v] ∧ poppedValues [e] = []) ∨
    (op = .clear ∧ s'.items = [] ∧ poppedValues [e] = []) ∨
    (pushedValues [op] = [] ∧ op ≠ .clear ∧ s.items = poppedValues [e] ++ s'.items) := by
  have pop : ∀ (u : GQ α) (t : Nat), popLoop u t = (s', e) → u.items = s.items →
      s.items = poppedValues [e] ++ s'.items := by
    intro u t hp hu
    unfold popLoop at hp
    split at hp
    · cases hp; simp [poppedValues, hu]
    · split at hp
      · next hi => cases hp; simp [poppedValues, hu]
      · next v rest hi => cases hp; simp [poppedValues, ← hu, hi]
  cases op with
  | push v => simp only [gstep, Option.some.injEq, Prod.mk.injEq] at h; obtain ⟨rfl, rfl⟩ := h; simp [poppedValues]
  | notify t =>
    right; right
    cases t <;> simp only [gstep] at h <;> split at h <;> simp_all [poppedValues, pushedValues] <;>
      (obtain ⟨rfl, rfl⟩ := h; simp [poppedValues])
  | kill => simp only [gstep, Option.some.injEq, Prod.mk.injEq] at h; obtain ⟨rfl, rfl⟩ := h; simp [poppedValues, pushedValues]
  | clear => simp only [gstep, Option.some.injEq, Prod.mk.injEq] at h; obtain ⟨rfl, rfl⟩ := h; simp [poppedValues, pushedValues]
  | popEnter t =>
    right; right
    simp only [gstep] at h
    split at h
    · cases h
    · exact ⟨rfl, by simp, pop s t (Option.some.inj h) rfl⟩
  | popResume t =>
    right; right
    simp only [gstep] at h
    split at h
    · exact ⟨rfl, by simp, pop _ t (Option.some.inj h) rfl⟩
    · cases h
  | spurious t =>
    right; right
    simp only [gstep] at h
    split at h
    · simp only [Option.some.injEq, Prod.mk.injEq] at h; obtain ⟨rfl, rfl⟩ := h; simp [poppedValues, pushedValues]
    · cases h

theorem poppedValues_cons (e : GEv α) (es : List (GEv α)) : poppedValues (e :: es) = poppedValues [e] ++ poppedValues es := by
  cases e <;> simp [poppedValues]

theorem pushedValues_cons (o : GOp α) (os : List (GOp α)) : pushedValues (o :: os) = pushedValues [o] ++ pushedValues os := by
  cases o <;> simp [pushedValues]

theorem grun_cons {s s' : GQ α} {op : GOp α} {ops : List (GOp α)} {es : List (GEv α)} (h : grun s (op :: ops) = some (s', es)) :
    ∃ s1 e es', gstep s op = some (s1, e) ∧ grun s1 ops = some (s', es') ∧ es = e :: es' := by
  simp only [grun] at h
  split at h
  · cases h
  · next s1 e h1 =>
    split at h
    · cases h
    · next s2 es' h2 => cases h; exact ⟨s1, e, es', h1, h2, rfl⟩

/-- **C21** Lossless FIFO: as long as the queue is not cleared, what `Pop` has handed out followed by what is still queued
is exactly what was queued before followed by what was pushed, in push order — for every schedule of any number of threads. -/
theorem C21_fifo_lossless (s s' : GQ α) (ops : List (GOp α)) (es : List (GEv α)) (h : grun s ops = some (s', es))
    (hc : ¬ (GOp.clear ∈ ops)) : poppedValues es ++ s'.items = s.items ++ pushedValues ops := by
  induction ops generalizing s es with
  | nil => simp only [grun, Option.some.injEq, Prod.mk.injEq] at h; obtain ⟨rfl, rfl⟩ := h; simp [poppedValues, pushedValues]
  | cons op ops ih =>
    obtain ⟨s1, e, es', h1, h2, rfl⟩ := grun_cons h
    have hi := ih s1 es' h2 (fun hm => hc (List.mem_cons_of_mem _ hm))
    rw [poppedValues_cons, pushedValues_cons, List.append_assoc, hi]
    rcases gstep_items h1 with ⟨v, rfl, e1, e2⟩ | ⟨rfl, -, -⟩ | ⟨e1, -, e2⟩
    · rw [e1, e2]; simp [pushedValues]
    · exact absurd List.mem_cons_self hc
    · rw [e1, e2]; simp

/-- **C21** At most once and in order, with clears: what is handed out is a subsequence of what was queued and pushed. -/
theorem C21_fifo_with_clear (s s' : GQ α) (ops : List (GOp α)) (es : List (GEv α)) (h : grun s ops = some (s', es)) :
    (poppedValues es ++ s'.items).Sublist (s.items ++ pushedValues ops) := by
  induction ops generalizing s es with
  | nil => simp only [grun, Option.some.injEq, Prod.mk.injEq] at h; obtain ⟨rfl, rfl⟩ := h; simp [poppedValues, pushedValues]
  | cons op ops ih =>
    obtain ⟨s1, e, es', h1, h2, rfl⟩ := grun_cons h
    have hi := ih s1 es' h2
    rw [poppedValues_cons, pushedValues_cons]
    rcases gstep_items h1 with ⟨v, rfl, e1, e2⟩ | ⟨rfl, e1, e2⟩ | ⟨e1, -, e2⟩
    · rw [e1] at hi; rw [e2]; simpa [pushedValues] using hi
    · rw [e1] at hi; rw [e2]
      simp only [List.nil_append] at hi ⊢
      exact hi.trans (by simp [pushedValues])
    · rw [e1, e2, List.nil_append, List.append_assoc, List.append_assoc]
      exact (List.append_sublist_append_left _).mpr hi

/-- Helper: running a concatenated schedule. -/
theorem grun_append {s s' : GQ α} {a b : List (GOp α)} {es : List (GEv α)} (h : grun s (a ++ b) = some (s', es)) :
    ∃ s1 e1 e2, grun s a = some (s1, e1) ∧ grun s1 b = some (s', e2) ∧ es = e1 ++ e2 := by
  induction a generalizing s es with
  | nil => exact ⟨s, [], es, rfl, h, rfl⟩
  | cons op a ih =>
    obtain ⟨s1, e, es', h1, h2, rfl⟩ := grun_cons h
    obtain ⟨s2, e1, e2, h3, h4, rfl⟩ := ih h2
    refine ⟨s2, e :: e1, e2, ?_, h4, rfl⟩
    simp only [grun, h1, h3]

/-- **C21** After `Clear` only later pushes are handed out. -/
theorem C21_clear_discards (s s' : GQ α) (a b : List (GOp α)) (es : List (GEv α))
    (h : grun s (a ++ .clear :: b) = some (s', es)) :
    ∃ e1 e2, es = e1 ++ e2 ∧ e1.length = a.length + 1 ∧ (poppedValues e2).Sublist (pushedValues b) := by
  obtain ⟨s1, e1, e2, h1, h2, rfl⟩ := grun_append h
  obtain ⟨s2, e, es', h3, h4, rfl⟩ := grun_cons h2
  have len : ∀ (u u' : GQ α) (o : List (GOp α)) (x : List (GEv α)), grun u o = some (u', x) → x.length = o.length := by
    intro u u' o
    induction o generalizing u with
    | nil => intro x hx; simp only [grun, Option.some.injEq, Prod.mk.injEq] at hx; simp [← hx.2]
    | cons p o ih =>
      intro x hx
      obtain ⟨v, e', x', -, g2, rfl⟩ := grun_cons hx
      simp [ih v x' g2]
  refine ⟨e1 ++ [e], es', by simp, by simp [len _ _ _ _ h1], ?_⟩
  have := C21_fifo_with_clear s2 s' b es' h4
  simp only [gstep, Option.some.injEq, Prod.mk.injEq] at h3
  obtain ⟨rfl, -⟩ := h3
  simp only [List.nil_append] at this
  exact (List.sublist_append_left _ _).trans this

/-- What no schedule can break: nobody sleeps once killed, and if somebody sleeps then every queued item has its own wake-up
under way (a woken thread or a pending notification). -/
structure GInv (s : GQ α) : Prop where
  awake : s.kill = true → s.waiting = []
  noLoss : s.waiting = [] ∨ s.items.length ≤ s.woken.length + s.pending

theorem ginv_popLoop {u u' : GQ α} {t : Nat} {e : GEv α} (hk : u.kill = true → u.waiting = [])
    (hw : u.waiting = [] ∨ u.items.length ≤ u.woken.length + 1 + u.pending)
    (h : popLoop u t = (u', e)) : GInv u' := by
  unfold popLoop at h
  split at h
  · next hkk => cases h; exact ⟨hk, Or.inl (hk hkk)⟩
  · next hkk =>
    split at h
    · next hi => cases h; exact ⟨fun hx => absurd hx hkk, Or.inr (by simp [hi])⟩
    · next v rest hi =>
      cases h
      refine ⟨hk, ?_⟩
      rcases hw with hw | hw
      · exact Or.inl hw
      · right; simp only [hi, List.length_cons] at hw; simp only; omega

theorem gstep_inv {s s' : GQ α} {op : GOp α} {e : GEv α} (hI : GInv s) (h : gstep s op = some (s', e)) : GInv s' := by
  obtain ⟨h1, h2⟩ := hI
  cases op with
  | push v =>
    simp only [gstep, Option.some.injEq, Prod.mk.injEq] at h; obtain ⟨rfl, -⟩ := h
    refine ⟨h1, ?_⟩
    rcases h2 with h2 | h2
    · exact Or.inl h2
    · right; simp only [List.length_append, List.length_singleton]; omega
  | notify t =>
    cases t with
    | none =>
      simp only [gstep] at h
      split at h
      · next hc => simp only [Option.some.injEq, Prod.mk.injEq] at h; obtain ⟨rfl, -⟩ := h; exact ⟨h1, Or.inl hc.2⟩
      · cases h
    | some t =>
      simp only [gstep] at h
      split at h
      · next hc =>
        simp only [Option.some.injEq, Prod.mk.injEq] at h; obtain ⟨rfl, -⟩ := h
        have hne : s.waiting ≠ [] := fun hx => by rw [hx] at hc; exact absurd hc.2 (by simp)
        refine ⟨fun hk => absurd (h1 hk) hne, ?_⟩
        rcases h2 with h2 | h2
        · exact absurd h2 hne
        · right; simp only [List.length_cons]; omega
      · cases h
  | kill => simp only [gstep, Option.some.injEq, Prod.mk.injEq] at h; obtain ⟨rfl, -⟩ := h; exact ⟨fun _ => rfl, Or.inl rfl⟩
  | clear => simp only [gstep, Option.some.injEq, Prod.mk.injEq] at h; obtain ⟨rfl, -⟩ := h; exact ⟨h1, Or.inr (by simp)⟩
  | popEnter t =>
    simp only [gstep] at h
    split at h
    · cases h
    · refine ginv_popLoop h1 ?_ (Option.some.inj h) <;> rcases h2 with h2 | h2 <;> first | exact Or.inl h2 | skip
      · right; omega
  | popResume t =>
    simp only [gstep] at h
    split at h
    · next ht =>
      have hl := List.length_erase_of_mem ht
      have hp := List.length_pos_of_mem ht
      refine ginv_popLoop (u := { s with woken := s.woken.erase t }) h1 ?_ (Option.some.inj h) <;>
        rcases h2 with h2 | h2 <;> first | exact Or.inl h2 | skip
      · right; simp only [hl]; omega
    · cases h
  | spurious t =>
    simp only [gstep] at h
    split at h
    · next ht =>
      simp only [Option.some.injEq, Prod.mk.injEq] at h; obtain ⟨rfl, -⟩ := h
      have hne : s.waiting ≠ [] := fun hx => by rw [hx] at ht; exact absurd ht (by simp)
      refine ⟨fun hk => absurd (h1 hk) hne, ?_⟩
      rcases h2 with h2 | h2
      · exact absurd h2 hne
      · right; simp only [List.length_cons]; omega
    · cases h

theorem grun_inv {s s' : GQ α} {ops : List (GOp α)} {es : List (GEv α)} (hI : GInv s) (h : grun s ops = some (s', es)) :
    GInv s' := by
  induction ops generalizing s es with
  | nil => simp only [grun, Option.some.injEq, Prod.mk.injEq] at h; rw [← h.1]; exact hI
  | cons op ops ih =>
    obtain ⟨s1, e, es', h1, h2, rfl⟩ := grun_cons h
    exact ih (gstep_inv hI h1) h2

/-- **C21** No lost wake-up: in every reachable state in which the queue holds a job and some thread sleeps in `Pop`,
a woken thread or a pending notification exists that will make progress. -/
theorem C21_no_lost_wakeup (s : GQ α) (ops : List (GOp α)) (es : List (GEv α)) (h : grun {} ops = some (s, es))
    (hitem : s.items ≠ []) (hwait : s.waiting ≠ []) : s.woken ≠ [] ∨ 0 < s.pending := by
  have hI := grun_inv (s := {}) ⟨fun _ => rfl, Or.inl rfl⟩ h
  rcases hI.noLoss with h1 | h1
  · exact absurd h1 hwait
  · cases hx : s.items with
    | nil => exact absurd hx hitem
    | cons a l =>
      cases hw : s.woken with
      | cons b l' => left; simp
      | nil => right; rw [hx, hw] at h1; simp only [List.length_cons, List.length_nil] at h1; omega

/-- **C21** Shut down: once killed nobody sleeps, and every `Pop` — new or woken — returns the empty job at once. -/
theorem C21_kill (s : GQ α) (ops : List (GOp α)) (es : List (GEv α)) (h : grun {} ops = some (s, es)) (hk : s.kill = true) :
    s.waiting = [] ∧
    (∀ t, t ∉ s.woken → gstep s (.popEnter t) = some (s, .empty t)) ∧
    (∀ t, t ∈ s.woken → gstep s (.popResume t) = some ({ s with woken := s.woken.erase t }, .empty t)) := by
  have hI := grun_inv (s := {}) ⟨fun _ => rfl, Or.inl rfl⟩ h
  have hw := hI.awake hk
  refine ⟨hw, ?_, ?_⟩
  · intro t ht; simp [gstep, hw, ht, popLoop, hk]
  · intro t ht; simp [gstep, ht, popLoop, hk]

/-- Helper: `kill` is never reset. -/
theorem gstep_kill {s s' : GQ α} {op : GOp α} {e : GEv α} (h : gstep s op = some (s', e)) (hk : s.kill = true) :
    s'.kill = true := by
  have pop : ∀ (u : GQ α) (t : Nat), u.kill = true → popLoop u t = (s', e) → s'.kill = true := by
    intro u t hu hp
    simp only [popLoop, hu, if_true, Prod.mk.injEq] at hp
    rw [← hp.1]; exact hu
  cases op with
  | popEnter t => simp only [gstep] at h; split at h; · cases h
                  · exact pop s t hk (Option.some.inj h)
  | popResume t => simp only [gstep] at h; split at h
                   · exact pop _ t (by exact hk) (Option.some.inj h)
                   · cases h
  | notify t => cases t <;> simp only [gstep] at h <;> split at h <;> first | cases h | skip
                all_goals first | exact hk | contradiction
  | spurious t => simp only [gstep] at h; split at h <;> first | cases h | skip
                  all_goals first | exact hk | contradiction
  | push v => simp only [gstep, Option.some.injEq, Prod.mk.injEq] at h; obtain ⟨rfl, -⟩ := h; exact hk
  | kill => simp only [gstep, Option.some.injEq, Prod.mk.injEq] at h; obtain ⟨rfl, -⟩ := h; rfl
  | clear => simp only [gstep, Option.some.injEq, Prod.mk.injEq] at h; obtain ⟨rfl, -⟩ := h; exact hk

/-- **C21** The empty job is never built: whenever `Pop` returned `{}`, `ShouldKillThread()` is true at every later time, so the
worker loop (MeshNoisePreview.cpp:401-406, NoiseTexture.cpp:547-552) leaves before using it. -/
theorem C21_empty_job_not_built (s s' : GQ α) (ops : List (GOp α)) (es : List (GEv α)) (h : grun s ops = some (s', es))
    (t : Nat) (he : GEv.empty t ∈ es) : s'.kill = true := by
  have keep : ∀ (u u' : GQ α) (o : List (GOp α)) (x : List (GEv α)), grun u o = some (u', x) → u.kill = true → u'.kill = true := by
    intro u u' o
    induction o generalizing u with
    | nil => intro x hx hk; simp only [grun, Option.some.injEq, Prod.mk.injEq] at hx; rw [← hx.1]; exact hk
    | cons p o ih =>
      intro x hx hk
      obtain ⟨v, e', x', g1, g2, rfl⟩ := grun_cons hx
      exact ih v x' g2 (gstep_kill g1 hk)
  induction ops generalizing s es with
  | nil => simp only [grun, Option.some.injEq, Prod.mk.injEq] at h; rw [← h.2] at he; exact absurd he (by simp)
  | cons op ops ih =>
    obtain ⟨s1, e, es', h1, h2, rfl⟩ := grun_cons h
    rcases List.mem_cons.mp he with he | he
    · subst he
      refine keep s1 s' ops es' h2 ?_
      have pop : ∀ (u : GQ α) (r : Nat), popLoop u r = (s1, .empty t) → s1.kill = true := by
        intro u r hp
        unfold popLoop at hp
        split at hp
        · next hk => cases hp; exact hk
        · split at hp <;> simp at hp
      cases op with
      | popEnter r => simp only [gstep] at h1; split at h1; · cases h1
                      · exact pop _ _ (Option.some.inj h1)
      | popResume r => simp only [gstep] at h1; split at h1
                       · exact pop _ _ (Option.some.inj h1)
                       · cases h1
      | notify r => cases r <;> simp only [gstep] at h1 <;> split at h1 <;> simp at h1
      | spurious r => simp only [gstep] at h1; split at h1 <;> simp at h1
      | push v => simp [gstep] at h1
      | kill => simp [gstep] at h1
      | clear => simp [gstep] at h1
    · exact ih s1 es' h2 he

/-- Non-vacuity: two consumers sleep, one push wakes one of them, then kill. -/
example : grun ({} : GQ Nat) [.popEnter 1, .popEnter 2, .push 7, .notify (some 2), .popResume 2, .kill, .popResume 1] =
    some ({ kill := true }, [.none, .none, .size 1, .none, .got 2 7, .none, .empty 1]) := by decide

/-! ### C22 -/

/-- Values popped from a completion queue. -/
def cPopped : List (CEv α) → List α
  | [] => []
  | .popped (some v) :: es => v :: cPopped es
  | _ :: es => cPopped es

/-- Values pushed with the version that was current at that moment, starting from version `ver`. -/
def cAccepted : UInt32 → List (COp α) → List α
  | _, [] => []
  | ver, .incVersion :: ops => cAccepted (ver + 1) ops
  | ver, .push v w :: ops => if w = ver then v :: cAccepted ver ops else cAccepted ver ops
  | ver, .pop :: ops => cAccepted ver ops

/-- **C22** Exactly the results pushed with the then-current version are popped, in order, each once. -/
theorem C22_fifo (s : CQ α) (ops : List (COp α)) :
    cPopped (crun s ops).2 ++ (crun s ops).1.items = s.items ++ cAccepted s.version ops := by
  induction ops generalizing s with
  | nil => simp [crun, cPopped, cAccepted]
  | cons op ops ih =>
    have hi := ih (cstep s op).1
    simp only [crun]
    cases op with
    | incVersion => simpa [cstep, cPopped, cAccepted] using hi
    | push v w =>
      by_cases hw : w = s.version
      · simp only [cstep, hw, if_true] at hi
        simpa [cstep, cPopped, cAccepted, hw] using hi
      · simp only [cstep, hw, if_false] at hi
        simpa [cstep, cPopped, cAccepted, hw] using hi
    | pop =>
      cases hs : s.items with
      | nil => simp only [cstep, hs] at hi ⊢; simpa [cPopped, cAccepted, hs] using hi
      | cons v rest => simp only [cstep, hs] at hi ⊢; simpa [cPopped, cAccepted] using hi

/-- **C22** (partial: needs the queue to have been emptied after the version increase, as `MeshNoisePreview::ReGenerate`
does; see `C22_stale_without_drain`) From an empty queue at version `v`, as long as the version is not increased again,
every popped result was pushed with version `v`. -/
theorem C22_current_only_partial (s : CQ α) (hs : s.items = []) (ops : List (COp α)) (hno : ¬ (COp.incVersion ∈ ops))
    (x : α) (hx : x ∈ cPopped (crun s ops).2) : ∃ op ∈ ops, op = COp.push x s.version := by
  have h := C22_fifo s ops
  rw [hs, List.nil_append] at h
  have hx' : x ∈ cAccepted s.version ops := by rw [← h]; exact List.mem_append_left _ hx
  clear h hx hs
  generalize s.version = ver at *
  induction ops with
  | nil => simp [cAccepted] at hx'
  | cons op ops ih =>
    have hno' : ¬ (COp.incVersion ∈ ops) := fun hm => hno (List.mem_cons_of_mem _ hm)
    cases op with
    | incVersion => exact absurd List.mem_cons_self hno
    | push v w =>
      simp only [cAccepted] at hx'
      split at hx'
      · next hw =>
        rcases List.mem_cons.mp hx' with rfl | hx'
        · exact ⟨_, List.mem_cons_self, by rw [hw]⟩
        · obtain ⟨o, ho, e⟩ := ih hno' hx'; exact ⟨o, List.mem_cons_of_mem _ ho, e⟩
      · obtain ⟨o, ho, e⟩ := ih hno' hx'; exact ⟨o, List.mem_cons_of_mem _ ho, e⟩
    | pop => obtain ⟨o, ho, e⟩ := ih hno' (by simpa [cAccepted] using hx'); exact ⟨o, List.mem_cons_of_mem _ ho, e⟩

/-- The full claim of C22 fails for the queue alone: increasing the version does not discard what is already queued. -/
theorem C22_stale_without_drain :
    cPopped (crun ({} : CQ String) [.push "old" 0, .incVersion, .pop]).2 = ["old"] := by decide

theorem crun_append (s : CQ α) (a b : List (COp α)) :
    crun s (a ++ b) = ((crun (crun s a).1 b).1, (crun s a).2 ++ (crun (crun s a).1 b).2) := by
  induction a generalizing s with
  | nil => rfl
  | cons op a ih => simp only [List.cons_append, crun, ih]

theorem crun_version (s : CQ α) (b : List (COp α)) (hb : ¬ COp.incVersion ∈ b) : (crun s b).1.version = s.version := by
  induction b generalizing s with
  | nil => rfl
  | cons op b ih =>
    simp only [crun]
    rw [ih _ (fun h => hb (List.mem_cons_of_mem _ h))]
    cases op with
    | incVersion => exact absurd List.mem_cons_self hb
    | push v w => simp only [cstep]; split <;> rfl
    | pop => simp only [cstep]; split <;> rfl

/-- **C22** The number `IncVersion` returns is the ticket for its results: until the next `IncVersion`, a push is accepted exactly if it carries that
number, whatever was pushed or popped in between and whatever happened before. -/
theorem C22_version_ticket (s : CQ α) (a b : List (COp α)) (hb : ¬ COp.incVersion ∈ b) (x : α) (w : UInt32) :
    ∃ v, (crun s (a ++ [.incVersion])).2.getLast? = some (.version v) ∧
      (crun s (a ++ [.incVersion] ++ b ++ [.push x w])).2.getLast? = some (.pushed (decide (w = v))) := by
  refine ⟨(crun s a).1.version + 1, ?_, ?_⟩
  · rw [crun_append]; simp [crun, cstep]
  · have hv : (crun s (a ++ [.incVersion] ++ b)).1.version = (crun s a).1.version + 1 := by
      rw [crun_append, crun_version _ b hb, crun_append]; simp [crun, cstep]
    rw [crun_append]
    generalize (crun s (a ++ [.incVersion] ++ b)).2 = l
    simp only [crun, cstep, hv]
    by_cases hw : w = (crun s a).1.version + 1
    · simp [hw]
    · simp [hw]

example : (crun ({} : CQ String) [.incVersion, .incVersion, .push "new" 2, .push "old" 1]).2 =
    [.version 1, .version 2, .pushed true, .pushed false] := by decide

/-- A second way it fails: the version is 32 bits wide, so after 2^32 increases an ancient version is current again. -/
theorem C22_version_wraps (s : CQ α) : (crun s (List.replicate (2 ^ 32) .incVersion)).1.version = s.version := by
  have h : ∀ (n : Nat) (s : CQ α), (crun s (List.replicate n .incVersion)).1.version = s.version + UInt32.ofNat n := by
    intro n
    induction n with
    | zero => intro s; simp [crun]
    | succ n ih =>
      intro s
      rw [List.replicate_succ]
      simp only [crun, cstep]
      rw [ih]
      simp only [UInt32.ofNat_add, UInt32.add_assoc]
      congr 1
      exact UInt32.add_comm _ _
  rw [h]
  have : UInt32.ofNat (2 ^ 32) = 0 := by decide
  rw [this, UInt32.add_zero]

/-- Helper invariant of the mesh preview. -/
structure MInv (s : Mesh) : Prop where
  ver : s.version = s.cqVersion ∧ s.cqVersion = UInt32.ofNat s.gen
  jobs : ∀ j ∈ s.jobs, j.gen = s.gen ∧ j.version = UInt32.ofNat j.gen
  busy : ∀ j ∈ s.busy, j.gen ≤ s.gen ∧ j.version = UInt32.ofNat j.gen
  done : s.draining = false → ∀ j ∈ s.done, j.gen = s.gen
  doneV : ∀ j ∈ s.done, j.gen ≤ s.gen
  shown : ∀ p ∈ s.shown, p.2.gen = p.1

theorem ofNat_inj {a b : Nat} (ha : a < 2 ^ 32) (hb : b < 2 ^ 32) (h : UInt32.ofNat a = UInt32.ofNat b) : a = b := by
  have := congrArg UInt32.toNat h
  simp only [UInt32.toNat_ofNat'] at this
  rwa [Nat.mod_eq_of_lt ha, Nat.mod_eq_of_lt hb] at this

theorem mstep_inv {s s' : Mesh} {op : MOp} (hb : s.gen < 2 ^ 32) (hI : MInv s) (h : mstep s op = some s') :
    MInv s' ∧ s.gen ≤ s'.gen := by
  obtain ⟨⟨v1, v2⟩, hj, hbu, hd, hdv, hs⟩ := hI
  cases op with
  | regenerate =>
    simp only [mstep] at h
    split at h
    · cases h
    · cases h
      refine ⟨⟨⟨rfl, ?_⟩, by simp, ?_, by simp, ?_, hs⟩, Nat.le_succ _⟩
      · show s.cqVersion + 1 = _; rw [v2, UInt32.ofNat_add]; rfl
      · intro j hm; exact ⟨Nat.le_succ_of_le (hbu j hm).1, (hbu j hm).2⟩
      · intro j hm; exact Nat.le_succ_of_le (hdv j hm)
  | drainOne =>
    simp only [mstep] at h
    split at h
    · next hdr =>
      split at h
      · cases h
      · next a rest hr =>
        cases h
        refine ⟨⟨⟨v1, v2⟩, hj, hbu, fun hx => absurd (hdr.symm.trans hx) (by simp), ?_, hs⟩, Nat.le_refl _⟩
        intro j hm; exact hdv j (by rw [hr]; exact List.mem_cons_of_mem _ hm)
    · cases h
  | drainEnd =>
    simp only [mstep] at h
    split at h
    · split at h
      · next he => cases h; exact ⟨⟨⟨v1, v2⟩, hj, hbu, fun _ j hm => by rw [he] at hm; exact absurd hm (by simp), hdv, hs⟩, Nat.le_refl _⟩
      · cases h
    · cases h
  | request =>
    simp only [mstep] at h
    split at h
    · cases h
    · cases h
      refine ⟨⟨⟨v1, v2⟩, ?_, hbu, hd, hdv, hs⟩, Nat.le_refl _⟩
      intro j hm
      rcases List.mem_append.mp hm with hm | hm
      · exact hj j hm
      · rcases List.mem_singleton.mp hm with rfl
        exact ⟨rfl, v1.trans v2⟩
  | consume =>
    simp only [mstep] at h
    split at h
    · cases h
    · next hdr =>
      split at h
      · cases h
      · next a rest hr =>
        cases h
        have hdr' : s.draining = false := by simpa using hdr
        refine ⟨⟨⟨v1, v2⟩, hj, hbu, fun _ j hm => hd hdr' j (by rw [hr]; exact List.mem_cons_of_mem _ hm),
          fun j hm => hdv j (by rw [hr]; exact List.mem_cons_of_mem _ hm), ?_⟩, Nat.le_refl _⟩
        intro p hp
        rcases List.mem_append.mp hp with hp | hp
        · exact hs p hp
        · rcases List.mem_singleton.mp hp with rfl
          exact hd hdr' a (by rw [hr]; exact List.mem_cons_self)
  | take i =>
    simp only [mstep] at h
    split at h
    · split at h
      · cases h
      · next a rest hr =>
        cases h
        refine ⟨⟨⟨v1, v2⟩, fun j hm => hj j (by rw [hr]; exact List.mem_cons_of_mem _ hm), ?_, hd, hdv, hs⟩, Nat.le_refl _⟩
        intro j hm
        rcases List.mem_cons.mp hm with rfl | hm
        · have := hj j (by rw [hr]; exact List.mem_cons_self)
          exact ⟨Nat.le_of_eq this.1, this.2⟩
        · exact hbu j hm
    · cases h
  | finish i =>
    simp only [mstep] at h
    split at h
    · cases h
    · next j hj' =>
      have hmem : j ∈ s.busy := List.mem_of_getElem? hj'
      have hbu' : ∀ k ∈ s.busy.eraseIdx i, k.gen ≤ s.gen ∧ k.version = UInt32.ofNat k.gen :=
        fun k hk => hbu k (List.mem_of_mem_eraseIdx hk)
      split at h
      · next hv =>
        cases h
        have hg : j.gen = s.gen := by
          refine ofNat_inj (Nat.lt_of_le_of_lt (hbu j hmem).1 hb) hb ?_
          rw [← (hbu j hmem).2, hv, v2]
        refine ⟨⟨⟨v1, v2⟩, hj, hbu', ?_, ?_, hs⟩, Nat.le_refl _⟩
        · intro hx k hk
          rcases List.mem_append.mp hk with hk | hk
          · exact hd hx k hk
          · rcases List.mem_singleton.mp hk with rfl; exact hg
        · intro k hk
          rcases List.mem_append.mp hk with hk | hk
          · exact hdv k hk
          · rcases List.mem_singleton.mp hk with rfl; exact Nat.le_of_eq hg
      · cases h; exact ⟨⟨⟨v1, v2⟩, hj, hbu', hd, hdv, hs⟩, Nat.le_refl _⟩

theorem mrun_inv (s : Mesh) (ops : List MOp) (h : mrun {} ops = some s) (hb : s.gen < 2 ^ 32) : MInv s := by
  have key : ∀ (ops : List MOp) (u : Mesh), MInv u → mrun u ops = some s → MInv s ∧ u.gen ≤ s.gen := by
    intro ops
    induction ops with
    | nil => intro u hu hr; simp only [mrun, Option.some.injEq] at hr; subst hr; exact ⟨hu, Nat.le_refl _⟩
    | cons op ops ih =>
      intro u hu hr
      simp only [mrun] at hr
      split at hr
      · cases hr
      · next u' h1 =>
        -- the number of generations never decreases, so it is bounded all along
        have mono : ∀ (o : List MOp) (w w' : Mesh), mrun w o = some w' → w.gen ≤ w'.gen := by
          intro o
          induction o with
          | nil => intro w w' hw; simp only [mrun, Option.some.injEq] at hw; subst hw; exact Nat.le_refl _
          | cons p o ih2 =>
            intro w w' hw
            simp only [mrun] at hw
            split at hw
            · cases hw
            · next w1 g1 =>
              refine Nat.le_trans ?_ (ih2 _ _ hw)
              cases p <;> simp only [mstep] at g1 <;> (repeat' split at g1) <;>
                first | cases g1 | skip
              all_goals first | exact Nat.le_refl _ | exact Nat.le_succ _ | (cases g1; exact Nat.le_refl _)
        have hu' : u.gen < 2 ^ 32 := Nat.lt_of_le_of_lt (mono (op :: ops) u s (by simp only [mrun, h1]; exact hr)) hb
        obtain ⟨i1, i2⟩ := mstep_inv hu' hu h1
        obtain ⟨j1, j2⟩ := ih u' i1 hr
        exact ⟨j1, Nat.le_trans i2 j2⟩
  exact (key ops {} ⟨⟨rfl, rfl⟩, by simp, by simp, by simp, by simp, by simp⟩ h).1

/-- **C22** (whole mesh preview) For every schedule of the main thread and any number of workers with fewer than 2^32
`ReGenerate` calls: every mesh the preview takes belongs to the latest `ReGenerate` call at that time. -/
theorem C22_preview_never_stale (s : Mesh) (ops : List MOp) (h : mrun {} ops = some s) (hb : s.gen < 2 ^ 32) :
    ∀ p ∈ s.shown, p.2.gen = p.1 := by
  exact (mrun_inv s ops h hb).shown

/-- Non-vacuity: a worker finishes an old job after a regeneration; its result is dropped, the new one is shown. -/
example : (mrun {} [.request, .take 0, .regenerate, .drainEnd, .request, .take 0, .finish 1, .finish 0, .consume]).map
    (·.shown) = some [(1, ⟨1, 1⟩)] := by decide

/-- **C22** No needed result is dropped: when a worker finishes a job, its mesh is queued for display exactly if the job belongs to the latest
`ReGenerate` call, whatever happened since the job was taken. -/
theorem C22_current_result_kept (s : Mesh) (ops : List MOp) (h : mrun {} ops = some s) (hb : s.gen < 2 ^ 32) (i : Nat) (j : Job)
    (hj : s.busy[i]? = some j) :
    ∃ s', mstep s (.finish i) = some s' ∧ s'.done = (if j.gen = s.gen then s.done ++ [j] else s.done) ∧ s'.busy = s.busy.eraseIdx i := by
  obtain ⟨⟨v1, v2⟩, _, hbu, _, _, _⟩ := mrun_inv s ops h hb
  obtain ⟨b1, b2⟩ := hbu j (List.mem_of_getElem? hj)
  by_cases hg : j.gen = s.gen
  · have hv : j.version = s.cqVersion := by rw [b2, hg, v2]
    exact ⟨{ s with busy := s.busy.eraseIdx i, done := s.done ++ [j] }, by simp only [mstep, hj, hv, if_true], by simp [hg], rfl⟩
  · have hv : j.version ≠ s.cqVersion := by
      intro hv
      exact hg (ofNat_inj (Nat.lt_of_le_of_lt b1 hb) hb (by rw [← b2, hv, v2]))
    exact ⟨{ s with busy := s.busy.eraseIdx i }, by simp only [mstep, hj, hv, if_false], by simp [hg], rfl⟩

example : ∃ s', (mrun {} [.regenerate, .drainEnd, .request, .take 0]).bind (mstep · (.finish 0)) = some s' ∧ s'.done = [⟨1, 1⟩] := ⟨_, rfl, rfl⟩

/-- Helper invariant of the texture preview. -/
def TInv (u : Tex) : Prop := u.shown.Pairwise (· < ·) ∧ (∀ x ∈ u.shown, x ≤ u.current) ∧
  u.current ≤ u.iteration ∧ (∀ x ∈ u.jobs ++ u.busy ++ u.done, x ≤ u.iteration)

theorem tex_inv (u s : Tex) (ops : List TOp) (h : trun u ops = some s) (hu : TInv u) : TInv s := by
  have key : ∀ (ops : List TOp) (u : Tex), (u.shown.Pairwise (· < ·) ∧ (∀ x ∈ u.shown, x ≤ u.current) ∧
      u.current ≤ u.iteration ∧ (∀ x ∈ u.jobs ++ u.busy ++ u.done, x ≤ u.iteration)) → trun u ops = some s → TInv s := by
    intro ops
    induction ops with
    | nil => intro u hu hr; simp only [trun, Option.some.injEq] at hr; subst hr; exact hu
    | cons op ops ih =>
      intro u ⟨h1, h2, h3, h4⟩ hr
      simp only [trun] at hr
      split at hr
      · cases hr
      · next u' hs =>
        refine ih u' ?_ hr
        cases op with
        | regenerate g ok =>
          simp only [tstep] at hs
          have h4' : ∀ x ∈ u.busy ++ u.done, x ≤ u.iteration + 1 := by
            intro x hx
            refine Nat.le_succ_of_le (h4 x ?_)
            simp only [List.mem_append] at hx ⊢
            rcases hx with hx | hx
            · exact Or.inl (Or.inr hx)
            · exact Or.inr hx
          split at hs
          · cases hs; exact ⟨h1, h2, Nat.le_succ_of_le h3, by simpa using h4'⟩
          · split at hs
            · cases hs
              refine ⟨h1, h2, Nat.le_succ_of_le h3, ?_⟩
              intro x hx
              simp only [List.nil_append, List.mem_append, List.mem_singleton] at hx
              rcases hx with (rfl | hx) | hx
              · exact Nat.le_refl _
              · exact h4' x (List.mem_append_left _ hx)
              · exact h4' x (List.mem_append_right _ hx)
            · cases hs
              refine ⟨?_, ?_, Nat.le_refl _, by simpa using h4'⟩
              · refine List.pairwise_append.mpr ⟨h1, List.pairwise_singleton _ _, ?_⟩
                intro a ha b hb
                rcases List.mem_singleton.mp hb with rfl
                exact Nat.lt_succ_of_le (Nat.le_trans (h2 a ha) h3)
              · intro x hx
                rcases List.mem_append.mp hx with hx | hx
                · exact Nat.le_succ_of_le (Nat.le_trans (h2 x hx) h3)
                · rcases List.mem_singleton.mp hx with rfl; exact Nat.le_refl _
        | take =>
          simp only [tstep] at hs
          split at hs
          · cases hs
          · next a rest hj =>
            cases hs
            refine ⟨h1, h2, h3, ?_⟩
            intro x hx
            apply h4 x
            simp only [hj, List.mem_append, List.mem_cons] at hx ⊢
            rcases hx with (hx | hx | hx) | hx
            · exact Or.inl (Or.inl (Or.inr hx))
            · exact Or.inl (Or.inl (Or.inl hx))
            · exact Or.inl (Or.inr hx)
            · exact Or.inr hx
        | finish i =>
          simp only [tstep] at hs
          split at hs
          · cases hs
          · next j hj =>
            cases hs
            refine ⟨h1, h2, h3, ?_⟩
            intro x hx
            apply h4 x
            simp only [List.mem_append, List.mem_singleton] at hx ⊢
            rcases hx with (hx | hx) | hx | hx
            · exact Or.inl (Or.inl hx)
            · exact Or.inl (Or.inr (List.mem_of_mem_eraseIdx hx))
            · exact Or.inr hx
            · subst hx; exact Or.inl (Or.inr (List.mem_of_getElem? hj))
        | draw =>
          simp only [tstep] at hs
          split at hs
          · cases hs; exact ⟨h1, h2, h3, h4⟩
          · next j rest hd =>
            have hsub : ∀ x ∈ u.jobs ++ u.busy ++ rest, x ≤ u.iteration := by
              intro x hx
              apply h4 x
              simp only [hd, List.mem_append, List.mem_cons] at hx ⊢
              rcases hx with hx | hx
              · exact Or.inl hx
              · exact Or.inr (Or.inr hx)
            split at hs
            · next hlt =>
              cases hs
              refine ⟨?_, ?_, ?_, hsub⟩
              · refine List.pairwise_append.mpr ⟨h1, List.pairwise_singleton _ _, ?_⟩
                intro a ha b hb
                rcases List.mem_singleton.mp hb with rfl
                exact Nat.lt_of_le_of_lt (h2 a ha) hlt
              · intro x hx
                rcases List.mem_append.mp hx with hx | hx
                · exact Nat.le_of_lt (Nat.lt_of_le_of_lt (h2 x hx) hlt)
                · rcases List.mem_singleton.mp hx with rfl; exact Nat.le_refl _
              · exact h4 j (by rw [hd]; simp)
            · cases hs; exact ⟨h1, h2, h3, hsub⟩
  exact key ops u hu h

/-- **C42** The texture preview never goes back: the iterations shown are strictly increasing, whatever order the workers
finish in. -/
theorem C42_texture_monotone (s : Tex) (ops : List TOp) (h : trun {} ops = some s) : s.shown.Pairwise (· < ·) := by
  exact (tex_inv {} s ops h ⟨by simp, by simp, Nat.le_refl _, by simp⟩).1

/-- Non-vacuity: two jobs finish in reverse order; only the newer is shown. -/
example : (trun {} [.regenerate true true, .take, .regenerate true true, .take, .finish 0, .finish 0, .draw, .draw]).map
    (·.shown) = some [2] := by decide

theorem trun_append (s : Tex) (a b : List TOp) : trun s (a ++ b) = (trun s a).bind (trun · b) := by
  induction a generalizing s with
  | nil => rfl
  | cons op a ih =>
    simp only [List.cons_append, trun]
    cases tstep s op with
    | none => rfl
    | some s' => exact ih s'

/-- **C42** The latest image does appear: once no job is queued, running or waiting to be drawn, the image shown last is the one of the latest
`ReGenerate` (if its size was valid), in whatever order the workers finished. -/
theorem C42_latest_shown (s : Tex) (a b : List TOp) (g : Bool) (h : trun {} (a ++ .regenerate g true :: b) = some s)
    (hb : ∀ g' ok, TOp.regenerate g' ok ∉ b) (hq : s.jobs = [] ∧ s.busy = [] ∧ s.done = []) :
    s.shown.getLast? = some s.iteration := by
  have key : ∀ (b : List TOp) (u : Tex), (∀ g' ok, TOp.regenerate g' ok ∉ b) →
      ((u.shown.getLast? = some u.iteration ∧ u.current = u.iteration) ∨ (u.iteration ∈ u.jobs ++ u.busy ++ u.done ∧ u.current < u.iteration)) →
      (∀ x ∈ u.jobs ++ u.busy ++ u.done, x ≤ u.iteration) →
      trun u b = some s → (s.shown.getLast? = some s.iteration ∨ s.iteration ∈ s.jobs ++ s.busy ++ s.done) := by
    intro b
    induction b with
    | nil =>
      intro u _ hu _ hr
      simp only [trun, Option.some.injEq] at hr; subst hr
      exact hu.imp And.left And.left
    | cons op b ih =>
      intro u hno hu hle hr
      simp only [trun] at hr
      split at hr
      · cases hr
      · next u' hs =>
        have hno' : ∀ g' ok, TOp.regenerate g' ok ∉ b := fun g' ok hm => hno g' ok (List.mem_cons_of_mem _ hm)
        cases op with
        | regenerate g' ok => exact absurd List.mem_cons_self (hno g' ok)
        | take =>
          simp only [tstep] at hs
          split at hs
          · cases hs
          · next x rest hj =>
            cases hs
            have hm : ∀ y, y ∈ rest ++ x :: u.busy ++ u.done ↔ y ∈ u.jobs ++ u.busy ++ u.done := by
              intro y; simp only [hj, List.mem_append, List.mem_cons]; tauto
            refine ih _ hno' ?_ ?_ hr
            · exact hu.imp id fun hx => ⟨(hm _).mpr hx.1, hx.2⟩
            · exact fun y hy => hle y ((hm y).mp hy)
        | finish i =>
          simp only [tstep] at hs
          split at hs
          · cases hs
          · next x hj =>
            cases hs
            have hm : ∀ y, y ∈ u.jobs ++ u.busy.eraseIdx i ++ (u.done ++ [x]) ↔ y ∈ u.jobs ++ u.busy ++ u.done := by
              intro y
              have hp : y ∈ u.busy ↔ y = x ∨ y ∈ u.busy.eraseIdx i := by
                constructor
                · intro hy
                  obtain ⟨k, hk, rfl⟩ := List.mem_iff_getElem.mp hy
                  by_cases hki : k = i
                  · left; subst hki; rw [List.getElem?_eq_getElem hk] at hj; exact Option.some.inj hj
                  · right; exact List.mem_eraseIdx_iff_getElem.mpr ⟨k, hk, hki, rfl⟩
                · rintro (rfl | hy)
                  · exact List.mem_of_getElem? hj
                  · exact List.mem_of_mem_eraseIdx hy
              simp only [List.mem_append, List.mem_singleton, hp]; tauto
            refine ih _ hno' ?_ ?_ hr
            · exact hu.imp id fun hx => ⟨(hm _).mpr hx.1, hx.2⟩
            · exact fun y hy => hle y ((hm y).mp hy)
        | draw =>
          simp only [tstep] at hs
          split at hs
          · cases hs; exact ih _ hno' hu hle hr
          · next x rest hd =>
            have hxle : x ≤ u.iteration := hle x (by rw [hd]; simp)
            have hle' : ∀ y ∈ u.jobs ++ u.busy ++ rest, y ≤ u.iteration := by
              intro y hy; apply hle y; rw [hd]; simp only [List.mem_append, List.mem_cons] at hy ⊢; tauto
            split at hs
            · next hlt =>
              cases hs
              refine ih _ hno' ?_ hle' hr
              rcases hu with hu | hu
              · omega
              · by_cases hx : x = u.iteration
                · left; simp [hx]
                · right
                  refine ⟨?_, by show x < u.iteration; omega⟩
                  have := hu.1
                  rw [hd] at this
                  simp only [List.mem_append, List.mem_cons] at this ⊢
                  tauto
            · next hlt =>
              cases hs
              refine ih _ hno' ?_ hle' hr
              rcases hu with hu | hu
              · exact Or.inl hu
              · right
                refine ⟨?_, hu.2⟩
                have := hu.1
                rw [hd] at this
                simp only [List.mem_append, List.mem_cons] at this ⊢
                have : u.iteration ≠ x := by omega
                tauto
  rw [trun_append] at h
  cases hu : trun {} a with
  | none => rw [hu] at h; cases h
  | some u =>
    rw [hu] at h
    have hI := tex_inv {} u a hu ⟨by simp, by simp, Nat.le_refl _, by simp⟩
    simp only [Option.bind_some, trun, tstep, Bool.not_true, Bool.false_eq_true, if_false] at h
    have hr : ∀ x ∈ u.busy ++ u.done, x ≤ u.iteration := by
      intro x hx; apply hI.2.2.2 x; simp only [List.mem_append] at hx ⊢; tauto
    have := hI.2.2.1
    have fin : s.shown.getLast? = some s.iteration ∨ s.iteration ∈ s.jobs ++ s.busy ++ s.done := by
      cases g with
      | true =>
        refine key b _ hb ?_ ?_ h
        · right; refine ⟨by simp, by simp; omega⟩
        · intro x hx
          simp only [if_true, List.nil_append, List.mem_append, List.mem_singleton] at hx
          rcases hx with (rfl | hx) | hx
          · exact Nat.le_refl _
          · exact Nat.le_succ_of_le (hr x (List.mem_append_left _ hx))
          · exact Nat.le_succ_of_le (hr x (List.mem_append_right _ hx))
      | false =>
        refine key b _ hb ?_ ?_ h
        · left; simp
        · intro x hx
          simp only [Bool.false_eq_true, if_false, List.nil_append] at hx
          exact Nat.le_succ_of_le (hr x hx)
    rcases fin with hf | hf
    · exact hf
    · rw [hq.1, hq.2.1, hq.2.2] at hf; simp at hf

example : (trun {} [.regenerate true true, .take, .regenerate true true, .take, .finish 0, .finish 0, .draw, .draw]).map
    (fun s => (s.shown.getLast?, s.iteration, s.jobs, s.busy, s.done)) = some (some 2, 2, [], [], []) := by decide

end FastNoise.Queues
