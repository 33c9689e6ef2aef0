import Verif.IpcRaceAlone
import Verif.IpcLemmas
import Verif.IpcRaceLemmas

/-! # C20: node editor IPC -/

namespace FastNoise.Ipc

/-- **C20** (refinement): any sequence of calls by any number of processes gives the results of the mailbox of `IpcSpec.lean`; the
only undefined outcome is the use of a released context. -/
theorem C20_implements_mailbox (ops : List Op) (hwf : ∀ op ∈ ops, op.wf) :
    (run World.init ops).map (·.2) = (Spec.init.run ops).map (·.2) := rel_run rel_init ops hwf

/-! ### Reachable states -/

theorem reach_rel {ops : List Op} {w : World} {os : List Out} (hwf : ∀ op ∈ ops, op.wf) (h : run World.init ops = some (w, os)) :
    ∃ s, Spec.init.run ops = some (s, os) ∧ Rel w s := by
  have key : ∀ (ops : List Op) (w0 : World) (s0 : Spec), Rel w0 s0 → (∀ op ∈ ops, op.wf) → ∀ w os, run w0 ops = some (w, os) →
      ∃ s, s0.run ops = some (s, os) ∧ Rel w s := by
    intro ops
    induction ops with
    | nil => intro w0 s0 hr _ w os h; cases h; exact ⟨s0, rfl, hr⟩
    | cons op ops ih =>
      intro w0 s0 hr hwf w os h
      simp only [run] at h
      have h1 := rel_step hr op (hwf op (by simp))
      cases e1 : step w0 op with
      | none => rw [e1] at h; cases h
      | some a =>
        obtain ⟨w1, o1⟩ := a
        cases e2 : s0.step op with
        | none => rw [e1, e2] at h1; exact h1.elim
        | some b =>
          obtain ⟨s1, o2⟩ := b
          rw [e1, e2] at h1
          obtain ⟨h2, rfl⟩ := h1
          rw [e1] at h
          simp only at h
          cases e3 : run w1 ops with
          | none => rw [e3] at h; cases h
          | some c =>
            rw [e3] at h
            cases h
            obtain ⟨s, h4, h5⟩ := ih w1 s1 h2 (fun op hop => hwf op (by simp [hop])) _ _ e3
            exact ⟨s, by simp only [Spec.run, e2, h4, Option.map_some], h5⟩
  exact key ops _ _ rel_init hwf w os h

theorem step_rel {w w' : World} {s : Spec} (hr : Rel w s) {op : Op} {o : Out} (hwf : op.wf) (h : step w op = some (w', o)) :
    ∃ s', s.step op = some (s', o) ∧ Rel w' s' := by
  have h1 := rel_step hr op hwf
  rw [h] at h1
  cases e : s.step op with
  | none => rw [e] at h1; exact h1.elim
  | some b => rw [e] at h1; exact ⟨b.1, by rw [h1.2], h1.1⟩

theorem rel_step_back {w : World} {s s' : Spec} (hr : Rel w s) {op : Op} {o : Out} (hwf : op.wf) (h : s.step op = some (s', o)) :
    ∃ w', step w op = some (w', o) ∧ Rel w' s' := by
  have h1 := rel_step hr op hwf
  rw [h] at h1
  cases e : step w op with
  | none => rw [e] at h1; exact h1.elim
  | some b => rw [e] at h1; exact ⟨b.1, by rw [← h1.2], h1.1⟩

/-- **C20** (delivery): in every reachable state, if context `b` has nothing to read and another context `a` of the same segment then
sends a message successfully, the next poll of `b` (with a large enough buffer) returns exactly that message, zero terminated, and
the poll after that returns nothing. -/
theorem C20_sent_message_is_polled_next (ops : List Op) (hwf : ∀ op ∈ ops, op.wf) {w w1 w2 : World} {os : List Out}
    (hrun : run World.init ops = some (w, os)) {a b : Nat} (hab : a ≠ b) {ca cb : Ctx} (hca : w.ctxs a = some ca) (hcb : w.ctxs b = some cb)
    (hsame : ca.seg = cb.seg) (B : Buf) (hempty : step w (.poll (some b) B) = some (w1, .msg 0 []))
    (imp : Bool) (text : List UInt8) (htext : (0 : UInt8) ∉ text) (hsend : step w1 (.send (some a) imp (some text)) = some (w2, .bool true))
    (B' : Buf) (hB : B'.null = false) (hsize : (text.length : Int) + 1 ≤ B'.size) :
    ∃ w3, step w2 (.poll (some b) B') = some (w3, .msg (if imp then 2 else 1) (text ++ [0])) ∧
      ∀ B'', step w3 (.poll (some b) B'') = some (w3, .msg 0 []) := by
  obtain ⟨s, _, hr⟩ := reach_rel hwf hrun
  obtain ⟨s1, h1, hr1⟩ := step_rel hr (by trivial) hempty
  obtain ⟨s2, h2, hr2⟩ := step_rel hr1 (by exact htext) hsend
  have ea := hr.ctx a
  have eb := hr.ctx b
  rw [hca] at ea
  rw [hcb] at eb
  cases ha : s.clients a with
  | none => rw [ha] at ea; cases ea
  | some cla =>
  cases hb : s.clients b with
  | none => rw [hb] at eb; cases eb
  | some clb =>
  rw [ha] at ea; rw [hb] at eb
  have hbox : cla.box = clb.box := by
    cases ea; cases eb; exact hsame
  -- the empty poll changes nothing
  obtain ⟨hlt, hseen⟩ := hr.cl b clb hb
  have hs1 : s1 = s ∧ ((s.boxes clb.box).length - clb.seen) % 256 = 0 := by
    simp only [Spec.step, hb] at h1
    cases hm : s.boxes clb.box with
    | nil =>
      rw [hm] at h1
      cases h1
      exact ⟨rfl, by simp⟩
    | cons m rest =>
      rw [hm] at h1
      simp only at h1
      split at h1
      · next hu => cases h1; exact ⟨rfl, hu⟩
      · split at h1
        · cases h1
        · split at h1
          · cases h1
          · cases hi : m.imp <;> simp [Message.code, hi] at h1
  obtain ⟨rfl, hu⟩ := hs1
  simp only [Spec.step, ha] at h2
  split at h2
  · next hl =>
    cases h2
    have hstep : Spec.step { s1 with
        boxes := upd s1.boxes cla.box (⟨imp, text⟩ :: s1.boxes cla.box),
        clients := upd s1.clients a (some { cla with seen := (s1.boxes cla.box).length + 1 }) } (.poll (some b) B') =
        some ({ s1 with
          boxes := upd s1.boxes cla.box (⟨imp, text⟩ :: s1.boxes cla.box),
          clients := upd (upd s1.clients a (some { cla with seen := (s1.boxes cla.box).length + 1 })) b
            (some { clb with seen := (s1.boxes clb.box).length + 1 }) }, .msg (if imp then 2 else 1) (text ++ [0])) := by
      simp only [Spec.step, upd_ne _ _ (Ne.symm hab), hb, hbox, upd_self]
      rw [if_neg (by simp only [List.length_cons]; omega), if_neg (by rw [hB]; simp; omega), if_neg (by omega)]
      rfl
    obtain ⟨w3, h3, hr3⟩ := rel_step_back hr2 (by trivial) hstep
    refine ⟨w3, h3, fun B'' => ?_⟩
    have hlast : ∃ sx, Spec.step { s1 with
          boxes := upd s1.boxes cla.box (⟨imp, text⟩ :: s1.boxes cla.box),
          clients := upd (upd s1.clients a (some { cla with seen := (s1.boxes cla.box).length + 1 })) b
            (some { clb with seen := (s1.boxes clb.box).length + 1 }) } (.poll (some b) B'') = some (sx, .msg 0 []) := by
      simp only [Spec.step, upd_self, hbox]
      rw [if_pos (by simp)]
      exact ⟨_, rfl⟩
    obtain ⟨sx, hlast⟩ := hlast
    obtain ⟨w4, h4, hr4⟩ := rel_step_back hr3 (by trivial) hlast
    rw [h4]
    -- nothing changed
    have : w4 = w3 := by
      simp only [step, poll, Option.map_eq_some_iff] at h4
      obtain ⟨⟨w5, c5, bs5⟩, h5, h6⟩ := h4
      cases hc : w3.ctxs b with
      | none => rw [hc] at h5; cases h5
      | some ctx =>
        rw [hc] at h5
        simp only at h5
        have hx := hr3.ctx b
        rw [hc] at hx
        simp only [upd_self, Option.map_some, Option.some.injEq] at hx
        subst hx
        have hz := (hr3.seg clb.box).1
        simp only [hbox, upd_self, List.length_cons] at hz
        have hz' : w3.segs (ctxOf { clb with seen := (s1.boxes clb.box).length + 1 }).seg 0 =
            (ctxOf { clb with seen := (s1.boxes clb.box).length + 1 }).last := hz
        rw [if_pos hz'] at h5
        cases h5; cases h6; rfl
    rw [this]
  · cases h2

/-- Messages sent during a run. -/
def sentIn (ops : List Op) (m : Message) : Prop := ∃ h, Op.send h m.imp (some m.text) ∈ ops

theorem boxes_sent {ops : List Op} {s0 s : Spec} {os : List Out} (h : s0.run ops = some (s, os)) (pre : List Op)
    (h0 : ∀ b m, m ∈ s0.boxes b → sentIn pre m) : ∀ b m, m ∈ s.boxes b → sentIn (pre ++ ops) m := by
  induction ops generalizing s0 os pre with
  | nil => cases h; simpa using h0
  | cons op ops ih =>
    simp only [Spec.run] at h
    cases e : s0.step op with
    | none => rw [e] at h; cases h
    | some a =>
      obtain ⟨s1, o⟩ := a
      rw [e] at h
      simp only at h
      cases e2 : s1.run ops with
      | none => rw [e2] at h; cases h
      | some c =>
        rw [e2] at h
        cases h
        have hmono : ∀ m, sentIn pre m → sentIn (pre ++ [op]) m := fun m ⟨hd, hm⟩ => ⟨hd, by simp [hm]⟩
        have := ih e2 (pre ++ [op]) (by
          cases op with
          | setup r ok =>
            simp only [Spec.step, Spec.setup] at e
            cases ok with
            | false => cases e; exact fun b m hm => hmono m (h0 b m hm)
            | true =>
              cases hn : s0.named with
              | some x => simp only [hn, if_true] at e; cases e; exact fun b m hm => hmono m (h0 b m hm)
              | none =>
                simp only [hn, if_true] at e; cases e
                intro b m hm
                simp only at hm
                by_cases eb : b = s0.nboxes
                · subst eb; simp at hm
                · rw [upd_ne _ _ eb] at hm; exact hmono m (h0 b m hm)
          | release hd =>
            cases hd with
            | none => cases e; exact fun b m hm => hmono m (h0 b m hm)
            | some c =>
              simp only [Spec.step] at e
              split at e
              · cases e
              · cases e; exact fun b m hm => hmono m (h0 b m hm)
          | send hd imp text =>
            cases hd with
            | none => cases e; exact fun b m hm => hmono m (h0 b m hm)
            | some c =>
              simp only [Spec.step] at e
              split at e
              · cases e
              · next cl _ =>
                split at e
                · cases e; exact fun b m hm => hmono m (h0 b m hm)
                · split at e
                  · cases e
                    intro b m hm
                    simp only at hm
                    by_cases eb : b = cl.box
                    · subst eb; rw [upd_self] at hm
                      rcases List.mem_cons.mp hm with rfl | hm
                      · exact ⟨some c, by simp⟩
                      · exact hmono m (h0 _ m hm)
                    · rw [upd_ne _ _ eb] at hm; exact hmono m (h0 b m hm)
                  · cases e; exact fun b m hm => hmono m (h0 b m hm)
          | poll hd b =>
            cases hd with
            | none => cases e; exact fun b m hm => hmono m (h0 b m hm)
            | some c =>
              simp only [Spec.step] at e
              split at e
              · cases e
              · split at e
                · cases e; exact fun b m hm => hmono m (h0 b m hm)
                · split at e
                  · cases e; exact fun b m hm => hmono m (h0 b m hm)
                  · split at e
                    · cases e; exact fun b m hm => hmono m (h0 b m hm)
                    · split at e <;> cases e <;> exact fun b m hm => hmono m (h0 b m hm))
        rw [List.append_assoc] at this
        exact this

/-- **C20** (nothing invented): a poll that reports a message reports the type and exact text of a message sent before. -/
theorem C20_only_sent_messages (ops : List Op) (hwf : ∀ op ∈ ops, op.wf) {w w' : World} {os : List Out} (hrun : run World.init ops = some (w, os))
    (c : Option Nat) (B : Buf) {code : Int} {bytes : List UInt8} (hpoll : step w (.poll c B) = some (w', .msg code bytes)) (hcode : 0 < code) :
    ∃ h imp text, Op.send h imp (some text) ∈ ops ∧ code = (if imp then 2 else 1) ∧ bytes = text ++ [0] := by
  obtain ⟨s, hs, hr⟩ := reach_rel hwf hrun
  obtain ⟨s1, h1, _⟩ := step_rel hr (by trivial) hpoll
  have hb := boxes_sent hs [] (by intro b m hm; simp [Spec.init] at hm)
  cases c with
  | none => cases h1; exact absurd hcode (by decide)
  | some c =>
    simp only [Spec.step] at h1
    split at h1
    · cases h1
    · next cl _ =>
      split at h1
      · cases h1; exact absurd hcode (by decide)
      · next m rest hm =>
        split at h1
        · cases h1; exact absurd hcode (by decide)
        · split at h1
          · cases h1; exact absurd hcode (by decide)
          · split at h1
            · cases h1; exact absurd hcode (by decide)
            · cases h1
              obtain ⟨h, hh⟩ := hb cl.box m (by rw [hm]; simp)
              exact ⟨h, m.imp, m.text, by simpa using hh, rfl, rfl⟩

/-- `c` has seen everything in its mailbox. -/
def upToDate (s : Spec) (c : Nat) : Prop := ∀ cl, s.clients c = some cl → cl.seen = (s.boxes cl.box).length

theorem upToDate_step {s s' : Spec} {op : Op} {o : Out} {c : Nat} (hlt : c < s.nclients) (hbox : ∀ cl, s.clients c = some cl → cl.box < s.nboxes)
    (h : upToDate s c) (hop : ∀ h' imp text, op = .send h' imp text → h' = some c)
    (e : s.step op = some (s', o)) :
    upToDate s' c ∧ c < s'.nclients ∧ (∀ cl, s'.clients c = some cl → cl.box < s'.nboxes) := by
  cases op with
  | setup r ok =>
    simp only [Spec.step, Spec.setup] at e
    cases ok with
    | false => cases e; exact ⟨h, hlt, hbox⟩
    | true =>
      cases hn : s.named with
      | some x =>
        simp only [hn, if_true] at e; cases e
        refine ⟨fun cl hc => h cl ?_, by simp only; omega, fun cl hc => hbox cl ?_⟩ <;>
          (simp only at hc; rwa [upd_ne _ _ (by omega)] at hc)
      | none =>
        simp only [hn, if_true] at e; cases e
        refine ⟨fun cl hc => ?_, by simp only; omega, fun cl hc => ?_⟩
        · simp only at hc ⊢
          rw [upd_ne _ _ (by omega)] at hc
          have := hbox cl hc
          rw [upd_ne _ _ (by omega)]; exact h cl hc
        · simp only at hc ⊢
          rw [upd_ne _ _ (by omega)] at hc
          have := hbox cl hc
          omega
  | release hd =>
    cases hd with
    | none => cases e; exact ⟨h, hlt, hbox⟩
    | some d =>
      simp only [Spec.step] at e
      split at e
      · cases e
      · cases e
        refine ⟨fun cl hc => h cl ?_, hlt, fun cl hc => hbox cl ?_⟩ <;>
        · simp only at hc
          by_cases ed : c = d
          · subst ed; rw [upd_self] at hc; cases hc
          · rwa [upd_ne _ _ ed] at hc
  | send hd imp text =>
    have := hop hd imp text rfl
    subst this
    simp only [Spec.step] at e
    split at e
    · cases e
    · split at e
      · cases e; exact ⟨h, hlt, hbox⟩
      · split at e
        · cases e
          next cl0 hcl0 _ _ _ =>
          refine ⟨fun cl hc => ?_, hlt, fun cl hc => ?_⟩
          · simp only [upd_self, Option.some.injEq] at hc; subst hc
            simp
          · simp only [upd_self, Option.some.injEq] at hc; subst hc
            exact hbox cl0 hcl0
        · cases e; exact ⟨h, hlt, hbox⟩
  | poll hd b =>
    cases hd with
    | none => cases e; exact ⟨h, hlt, hbox⟩
    | some d =>
      simp only [Spec.step] at e
      split at e
      · cases e
      · next cl0 hcl0 =>
        have hset : ∀ s1 : Spec, s1 = { s with clients := upd s.clients d (some { cl0 with seen := (s.boxes cl0.box).length }) } →
            upToDate s1 c ∧ c < s1.nclients ∧ (∀ cl, s1.clients c = some cl → cl.box < s1.nboxes) := by
          rintro s1 rfl
          refine ⟨fun cl hc => ?_, hlt, fun cl hc => ?_⟩
          · simp only at hc
            by_cases ed : c = d
            · subst ed; rw [upd_self] at hc; cases hc; rfl
            · rw [upd_ne _ _ ed] at hc; exact h cl hc
          · simp only at hc
            by_cases ed : c = d
            · subst ed; rw [upd_self] at hc; cases hc; exact hbox cl0 hcl0
            · rw [upd_ne _ _ ed] at hc; exact hbox cl hc
        split at e
        · cases e; exact ⟨h, hlt, hbox⟩
        · split at e
          · cases e; exact ⟨h, hlt, hbox⟩
          · split at e
            · cases e; exact ⟨h, hlt, hbox⟩
            · split at e <;> cases e <;> exact hset _ rfl

theorem clients_lt {ops : List Op} {s : Spec} {os : List Out} (h : Spec.init.run ops = some (s, os)) :
    ∀ c cl, s.clients c = some cl → c < s.nclients := by
  have key : ∀ (ops : List Op) (s0 : Spec), (∀ c cl, s0.clients c = some cl → c < s0.nclients) → ∀ s os, s0.run ops = some (s, os) →
      ∀ c cl, s.clients c = some cl → c < s.nclients := by
    intro ops
    induction ops with
    | nil => intro s0 h0 s os h; cases h; exact h0
    | cons op ops ih =>
      intro s0 h0 s os h
      simp only [Spec.run] at h
      cases e : s0.step op with
      | none => rw [e] at h; cases h
      | some a =>
        obtain ⟨s1, o⟩ := a
        rw [e] at h
        simp only at h
        cases e2 : s1.run ops with
        | none => rw [e2] at h; cases h
        | some c =>
          rw [e2] at h
          cases h
          refine ih s1 ?_ _ _ e2
          cases op with
          | setup r ok =>
            simp only [Spec.step, Spec.setup] at e
            cases ok with
            | false => cases e; exact h0
            | true =>
              cases hn : s0.named <;> simp only [hn, if_true] at e <;> cases e <;> intro c cl hc <;> simp only at hc ⊢ <;>
              · by_cases ec : c = s0.nclients
                · omega
                · rw [upd_ne _ _ ec] at hc
                  have := h0 c cl hc
                  omega
          | release hd =>
            cases hd with
            | none => cases e; exact h0
            | some d =>
              simp only [Spec.step] at e
              split at e
              · cases e
              · cases e
                intro c cl hc
                simp only at hc ⊢
                by_cases ed : c = d
                · subst ed; rw [upd_self] at hc; cases hc
                · rw [upd_ne _ _ ed] at hc; exact h0 c cl hc
          | send hd imp text =>
            cases hd with
            | none => cases e; exact h0
            | some d =>
              simp only [Spec.step] at e
              split at e
              · cases e
              · next cl0 hcl0 =>
                split at e
                · cases e; exact h0
                · split at e
                  · cases e
                    intro c cl hc
                    simp only at hc ⊢
                    by_cases ed : c = d
                    · subst ed; exact h0 c cl0 hcl0
                    · rw [upd_ne _ _ ed] at hc; exact h0 c cl hc
                  · cases e; exact h0
          | poll hd b =>
            cases hd with
            | none => cases e; exact h0
            | some d =>
              simp only [Spec.step] at e
              split at e
              · cases e
              · next cl0 hcl0 =>
                split at e
                · cases e; exact h0
                · split at e
                  · cases e; exact h0
                  · split at e
                    · cases e; exact h0
                    · split at e <;> cases e <;>
                      · intro c cl hc
                        simp only at hc ⊢
                        by_cases ed : c = d
                        · subst ed; exact h0 c cl0 hcl0
                        · rw [upd_ne _ _ ed] at hc; exact h0 c cl hc
  exact key ops _ (by intro c cl h; simp [Spec.init] at h) s os h

/-- **C20** (at most once): after a poll of `c` has reported a message, polls of `c` report nothing until some other context sends. -/
theorem C20_at_most_once (ops mid : List Op) (hwf : ∀ op ∈ ops, op.wf) (hwf2 : ∀ op ∈ mid, op.wf) {w w1 w2 w3 : World} {os os2 : List Out}
    (hrun : run World.init ops = some (w, os)) {c : Nat} {B B' : Buf} {code : Int} {bytes : List UInt8}
    (hpoll : step w (.poll (some c) B) = some (w1, .msg code bytes)) (hcode : 0 < code)
    (hmid : run w1 mid = some (w2, os2)) (hno : ∀ h imp text, Op.send h imp text ∈ mid → h = some c)
    {o : Out} (hpoll2 : step w2 (.poll (some c) B') = some (w3, o)) : o = .msg 0 [] := by
  obtain ⟨s, hs, hr⟩ := reach_rel hwf hrun
  obtain ⟨s1, h1, hr1⟩ := step_rel hr (by trivial) hpoll
  have hlt := clients_lt hs
  have hup : upToDate s1 c ∧ c < s1.nclients := by
    simp only [Spec.step] at h1
    split at h1
    · cases h1
    · next cl hcl =>
      have := hlt c cl hcl
      split at h1
      · cases h1; exact absurd hcode (by decide)
      · next m rest hm =>
        split at h1
        · cases h1; exact absurd hcode (by decide)
        · split at h1
          · cases h1; exact absurd hcode (by decide)
          · split at h1
            · cases h1; exact absurd hcode (by decide)
            · cases h1
              refine ⟨fun cl' h' => ?_, this⟩
              simp only [upd_self, Option.some.injEq] at h'
              subst h'; rfl
  have key : ∀ (mid : List Op) (w1 : World) (s1 : Spec), Rel w1 s1 → upToDate s1 c → c < s1.nclients → (∀ op ∈ mid, op.wf) →
      (∀ h imp text, Op.send h imp text ∈ mid → h = some c) → ∀ w2 os2, run w1 mid = some (w2, os2) → ∃ s2, Rel w2 s2 ∧ upToDate s2 c := by
    intro mid
    induction mid with
    | nil => intro w1 s1 hr hu _ _ _ w2 os2 h; cases h; exact ⟨s1, hr, hu⟩
    | cons op mid ih =>
      intro w1 s1 hr hu hl hwf hno w2 os2 h
      simp only [run] at h
      cases e1 : step w1 op with
      | none => rw [e1] at h; cases h
      | some a =>
        obtain ⟨w', o'⟩ := a
        rw [e1] at h
        simp only at h
        cases e3 : run w' mid with
        | none => rw [e3] at h; cases h
        | some b =>
          rw [e3] at h
          cases h
          obtain ⟨s', g1, g2⟩ := step_rel hr (hwf op (by simp)) e1
          obtain ⟨g3, g4, _⟩ := upToDate_step hl (fun cl hc => (hr.cl c cl hc).1) hu
            (fun h' imp text e => hno h' imp text (by rw [← e]; simp)) g1
          exact ih w' s' g2 g3 g4 (fun op hop => hwf op (by simp [hop])) (fun h' imp text e => hno h' imp text (by simp [e])) _ _ e3
  obtain ⟨s2, hr2, hu2⟩ := key mid w1 s1 hr1 hup.1 hup.2 hwf2 hno _ _ hmid
  obtain ⟨s3, h3, _⟩ := step_rel hr2 (by trivial) hpoll2
  simp only [Spec.step] at h3
  split at h3
  · cases h3
  · next cl hcl =>
    have := hu2 cl hcl
    split at h3
    · cases h3; rfl
    · rw [if_pos (by omega)] at h3
      cases h3; rfl

/-- **C20** (memory safety under any interleaving of any number of processes): no access outside the mapping, and a poll writes at most
`bufferSize` bytes to the caller's buffer and none to a null buffer. -/
theorem C20_never_beyond_buffer {P : Nat} (l : List (Fin P × Race.Act)) :
    ∃ s, Race.run Race.St.init l = some s ∧
      (∀ p, match s.pc p with
        | .copy _ _ i => 2 + i < 65536  -- about to write byte 2 + i of the 64 KiB mapping
        | .pLen _ _ i => 2 + i < 65536  -- about to read it
        | .pCopy _ _ _ i _ => 2 + i < 65536
        | _ => True) ∧
      ∀ r ∈ s.done, (r.2.2.2.length : Int) ≤ max 0 r.2.1.size ∧ (r.2.1.null = true → r.2.2.2 = []) := by
  obtain ⟨s, h, hi⟩ := (Race.inv_init (P := P)).run l
  refine ⟨s, h, fun p => ?_, hi.done⟩
  have := hi.pc p
  revert this
  cases s.pc p <;> simp only [Race.pcOK] <;> first | (intro _; trivial) | omega

/-- **C20** (calls that do not overlap, byte by byte, from any state of any number of processes): a send by one process followed by a
poll of another, with nothing in between, hands over exactly the type and the text sent, with its terminator, once the poller's
last seen counter differs from the new one and its buffer is large enough. -/
theorem C20_uninterrupted_delivery {P : Nat} (s : Race.St P) (p q : Fin P) (hpq : p ≠ q) (hp : s.pc p = .idle) (hq : s.pc q = .idle)
    (imp : Bool) (text : List UInt8) (hz : ∀ c ∈ text, c ≠ 0) (ht : text.length + 3 < 65536) (b : Buf) (hb : b.null = false)
    (hs : (text.length : Int) + 1 ≤ b.size) (hc : s.last q ≠ s.mem 0 + 1) :
    ∃ s', Race.run s (([(p, .send imp text)] ++ List.replicate (text.length + 4) (p, .run)) ++
        ([(q, .poll b)] ++ List.replicate (2 * text.length + 3) (q, .run))) = some s' ∧
      s'.pc p = .idle ∧ s'.pc q = .idle ∧ s'.done = (q, b, (if imp then 2 else 1), text ++ [0]) :: s.done := by
  obtain ⟨m, h1, h2, h3, h4⟩ := Race.send_run s p imp text hp ht
  rw [Race.run_append, h1, Option.bind_some]
  have hr := Race.poll_run { s with mem := m, last := Race.updP s.last p (s.mem 0 + 1), pc := Race.updP s.pc p .idle } q b (typeOf imp) text
    (by simp only; rw [Race.updP_ne _ _ (Ne.symm hpq)]; exact hq) hz ht hb hs
    (by simp only; rw [Race.updP_ne _ _ (Ne.symm hpq), h2]; exact Ne.symm hc) h3 (by cases imp <;> simp [typeOf]) h4
  refine ⟨_, hr, ?_, ?_, ?_⟩
  · simp only; rw [Race.updP_ne _ _ hpq]; simp
  · simp
  · cases imp <;> rfl

example : ∃ s', Race.run (Race.St.init : Race.St 2) (([(0, .send true [70, 78])] ++ List.replicate 6 (0, .run)) ++
    ([(1, .poll ⟨false, 64⟩)] ++ List.replicate 7 (1, .run))) = some s' ∧ s'.pc 0 = .idle ∧ s'.pc 1 = .idle ∧
    s'.done = [(1, ⟨false, 64⟩, 2, [70, 78, 0])] :=
  C20_uninterrupted_delivery Race.St.init 0 1 (by decide) rfl rfl true [70, 78] (by decide) (by decide) ⟨false, 64⟩ rfl (by decide) (by decide)

/-- **C20**: texts that do not fit are refused and change nothing. -/
theorem C20_oversized_refused (w : World) (c : Nat) (ctx : Ctx) (hc : w.ctxs c = some ctx) (imp : Bool) (text : List UInt8) :
    (step w (.send (some c) imp (some text)) = some (w, .bool false) ↔ 65533 ≤ text.length) := by
  simp only [step, send, hc]
  by_cases h : text.length + 3 ≥ shmSize
  · rw [if_pos h]
    unfold shmSize at h
    simp only [Option.map_some, true_iff]; omega
  · rw [if_neg h]
    unfold shmSize at h
    simp
    omega

/-! ### Non-vacuity -/

def big : Buf := ⟨false, 65536⟩

/-- Two processes, a message each way. -/
example : (run World.init [.setup false true, .setup false true, .send (some 0) false (some [65, 66]), .poll (some 1) big, .poll (some 1) big,
      .send (some 1) true (some [67]), .poll (some 0) big]).map (·.2) =
    some [.handle (some 0), .handle (some 1), .bool true, .msg 1 [65, 66, 0], .msg 0 [], .bool true, .msg 2 [67, 0]] := by decide +kernel

/-! ### What the code does not give -/

/-- **C20 fails** (delivery): a second message overwrites an unread one. -/
theorem C20_unread_overwritten : (run World.init [.setup false true, .setup false true, .send (some 0) true (some [65]),
      .send (some 0) false (some [66]), .poll (some 1) big, .poll (some 1) big]).map (·.2) =
    some [.handle (some 0), .handle (some 1), .bool true, .bool true, .msg 1 [66, 0], .msg 0 []] := by decide +kernel

/-- **C20 fails**: sending discards a message waiting for the sender. -/
theorem C20_send_discards_unread : (run World.init [.setup false true, .setup false true, .send (some 0) true (some [65]),
      .send (some 1) false (some [66]), .poll (some 1) big]).map (·.2) =
    some [.handle (some 0), .handle (some 1), .bool true, .bool true, .msg 0 []] := by decide +kernel

/-- **C20 fails**: a poll with a buffer that is too small loses the message (with a null or empty buffer it does not). -/
theorem C20_small_buffer_loses : (run World.init [.setup false true, .setup false true, .send (some 0) true (some [65, 66]),
      .poll (some 1) ⟨true, 0⟩, .poll (some 1) ⟨false, 2⟩, .poll (some 1) big]).map (·.2) =
    some [.handle (some 0), .handle (some 1), .bool true, .msg (-1) [], .msg (-1) [], .msg 0 []] := by decide +kernel

/-- **C20 fails**: after exactly 256 unread messages a poll reports nothing. -/
theorem C20_counter_wraps : ∃ w w', (run World.init ([.setup false true, .setup false true] ++
      List.replicate 256 (.send (some 0) true (some [65])))).map (·.1) = some w ∧ step w (.poll (some 1) big) = some (w', .msg 0 []) := by
  have h : (run World.init (([.setup false true, .setup false true] ++
      List.replicate 256 (.send (some 0) true (some [65]))) ++ [.poll (some 1) big])).map (·.2) =
      (Spec.init.run (([.setup false true, .setup false true] ++
      List.replicate 256 (.send (some 0) true (some [65]))) ++ [.poll (some 1) big])).map (·.2) := by
    refine C20_implements_mailbox _ ?_
    intro op hop
    simp only [List.mem_append, List.mem_cons, List.mem_replicate, List.not_mem_nil, or_false] at hop
    rcases hop with ((rfl | rfl) | ⟨_, rfl⟩) | rfl <;> simp [Op.wf]
  have h2 : ((Spec.init.run (([.setup false true, .setup false true] ++
      List.replicate 256 (.send (some 0) true (some [65]))) ++ [.poll (some 1) big])).map (·.2)).map List.getLast? = some (some (.msg 0 [])) := by
    decide +kernel
  rw [← h] at h2
  have key : ∀ (ops : List Op) (w : World) (op : Op) (o : Out), ((run w (ops ++ [op])).map (·.2)).map List.getLast? = some (some o) →
      ∃ w1 w', (run w ops).map (·.1) = some w1 ∧ step w1 op = some (w', o) := by
    intro ops
    induction ops with
    | nil =>
      intro w op o h
      simp only [List.nil_append, run] at h
      cases e : step w op with
      | none => rw [e] at h; cases h
      | some a =>
        rw [e] at h
        simp at h
        exact ⟨w, a.1, rfl, by rw [← h]; exact e⟩
    | cons x ops ih =>
      intro w op o h
      simp only [List.cons_append, run] at h ⊢
      cases e : step w x with
      | none => rw [e] at h; cases h
      | some a =>
        rw [e] at h
        simp only at h ⊢
        cases e2 : run a.1 (ops ++ [op]) with
        | none => rw [e2] at h; cases h
        | some c =>
          rw [e2] at h
          have hne : c.2 ≠ [] := by
            intro hc
            have : ∀ (l : List Op) (w : World) r, run w l = some r → r.2.length = l.length := by
              intro l
              induction l with
              | nil => intro w r h; cases h; rfl
              | cons y l ihl =>
                intro w r h
                simp only [run] at h
                cases e5 : step w y with
                | none => rw [e5] at h; cases h
                | some q =>
                  rw [e5] at h
                  simp only at h
                  cases e6 : run q.1 l with
                  | none => rw [e6] at h; cases h
                  | some v => rw [e6] at h; cases h; simp [ihl _ _ e6]
            have := this _ _ _ e2
            rw [hc] at this; simp at this
          have h' : ((run a.1 (ops ++ [op])).map (·.2)).map List.getLast? = some (some o) := by
            rw [e2]
            simp only [Option.map_some] at h ⊢
            rw [← h]
            obtain ⟨y, l, hyl⟩ := List.exists_cons_of_ne_nil hne
            rw [hyl]; simp [List.getLast?_cons]
          obtain ⟨w1, w', h1, h2⟩ := ih a.1 op o h'
          refine ⟨w1, w', ?_, h2⟩
          cases e3 : run a.1 ops with
          | none => rw [e3] at h1; cases h1
          | some d => rw [e3] at h1; simpa using h1
  exact key _ _ _ _ h2

/-- **C20 fails**: releasing one context unlinks the shared memory, so that a context set up afterwards cannot talk to one that is
still open. -/
theorem C20_release_disconnects : (run World.init [.setup false true, .setup false true, .release (some 1), .setup false true,
      .send (some 0) false (some [65]), .poll (some 2) big]).map (·.2) =
    some [.handle (some 0), .handle (some 1), .unit, .handle (some 2), .bool true, .msg 0 []] := by decide +kernel

open Race in
/-- **C20 fails for overlapping calls**: a poll during a send reports a text nobody sent (`BBAA`). -/
theorem C20_torn_read : ((Race.run (St.init : St 2)
      ([(0, .send false [65, 65, 65, 65])] ++ List.replicate 8 (0, .run) ++ [(1, .poll big), (1, .run)] ++
       [(0, .send false [66, 66, 66, 66]), (0, .run), (0, .run)] ++ List.replicate 10 (1, .run))).map fun s => s.done.map fun r => (r.2.2.1, r.2.2.2)) =
    some [(1, [66, 66, 65, 65, 0])] := by decide +kernel

open Race in
/-- **C20 fails for overlapping calls**: the text put in the caller's buffer need not be zero terminated. -/
theorem C20_unterminated_read : ((Race.run (St.init : St 2)
      ([(0, .send false [65])] ++ List.replicate 5 (0, .run) ++ [(1, .poll big), (1, .run), (1, .run), (1, .run)] ++
       [(0, .send false [66, 66, 66, 66])] ++ List.replicate 8 (0, .run) ++ List.replicate 10 (1, .run))).map fun s => s.done.map fun r => (r.2.2.1, r.2.2.2)) =
    some [(1, [66, 66])] := by decide +kernel

end FastNoise.Ipc
