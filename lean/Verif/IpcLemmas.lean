import Verif.IpcSpec

/-! The shared memory implementation refines the mailbox. -/

namespace FastNoise.Ipc

@[simp] theorem upd_self {β : Type} (f : Nat → β) (a : Nat) (b : β) : upd f a b a = b := if_pos rfl
theorem upd_ne {β : Type} (f : Nat → β) {a x : Nat} (b : β) (h : x ≠ a) : upd f a b x = f x := if_neg h

theorem strlen_eq {m : Mem} {p k fuel : Nat} (h : ∀ i, i < k → m (p + i) ≠ 0) (h0 : m (p + k) = 0) (hk : k < fuel) : strlen m p fuel = some k := by
  induction k generalizing p fuel with
  | zero =>
    cases fuel with
    | zero => omega
    | succ fuel => simp only [strlen]; rw [if_pos (by simpa using h0)]
  | succ k ih =>
    cases fuel with
    | zero => omega
    | succ fuel =>
      simp only [strlen]
      rw [if_neg (by simpa using h 0 (by omega)), ih ?_ ?_ (by omega)]
      · rfl
      · intro i hi
        have := h (i + 1) (by omega)
        rwa [show p + (i + 1) = p + 1 + i by omega] at this
      · rwa [show p + (k + 1) = p + 1 + k by omega] at h0

def SegRel (m : Mem) (msgs : List Message) : Prop :=
  m 0 = UInt8.ofNat msgs.length ∧
    match msgs with
    | [] => m 1 = 0
    | msg :: _ => m 1 = typeOf msg.imp ∧ (∀ i, i < msg.text.length → m (2 + i) = msg.text.getD i 0) ∧ m (2 + msg.text.length) = 0 ∧
        msg.text.length ≤ 65532 ∧ (0 : UInt8) ∉ msg.text

def ctxOf (cl : Client) : Ctx := ⟨cl.box, UInt8.ofNat cl.seen⟩

structure Rel (w : World) (s : Spec) : Prop where
  nsegs : w.nsegs = s.nboxes
  named : w.named = s.named
  namedlt : ∀ b, s.named = some b → b < s.nboxes
  nctx : w.nctx = s.nclients
  seg : ∀ b, SegRel (w.segs b) (s.boxes b)
  ctx : ∀ c, w.ctxs c = (s.clients c).map ctxOf
  cl : ∀ c cl, s.clients c = some cl → cl.box < s.nboxes ∧ cl.seen ≤ (s.boxes cl.box).length

theorem ofNat_eq_iff {n k : Nat} (h : k ≤ n) : UInt8.ofNat n = UInt8.ofNat k ↔ (n - k) % 256 = 0 := by
  constructor
  · intro e
    have := congrArg UInt8.toNat e
    simp only [UInt8.toNat_ofNat'] at this
    omega
  · intro e
    apply UInt8.toNat_inj.mp
    simp only [UInt8.toNat_ofNat']
    omega

theorem ofNat_pred {n : Nat} (h : 0 < n) : UInt8.ofNat n - 1 = UInt8.ofNat (n - 1) := by
  obtain ⟨k, rfl⟩ : ∃ k, n = k + 1 := ⟨n - 1, by omega⟩
  rw [UInt8.ofNat_add]
  simp

theorem segRel_zero : SegRel (fun _ => 0) [] := ⟨rfl, rfl⟩

theorem typeOf_or (b : Bool) : typeOf b = 1 ∨ typeOf b = 2 := by cases b <;> simp [typeOf]

theorem typeOf_toNat (m : Message) : ((typeOf m.imp).toNat : Int) = m.code := by
  cases h : m.imp <;> simp [typeOf, Message.code, h]

theorem rel_init : Rel World.init Spec.init :=
  ⟨rfl, rfl, fun _ h => (by cases h), rfl, fun _ => segRel_zero, fun _ => rfl, fun _ _ h => (by cases h)⟩

theorem last_eq {m : Mem} {msgs : List Message} (h : SegRel m msgs) (r : Bool) :
    (if r && m 1 == 1 then m 0 - 1 else m 0) = UInt8.ofNat (seenAtSetup msgs r) := by
  obtain ⟨h0, h1⟩ := h
  cases msgs with
  | nil =>
    simp only at h1
    rw [h1, h0]
    simp [seenAtSetup]
  | cons x l =>
    obtain ⟨ht, _⟩ := h1
    rw [ht, h0]
    have hp := ofNat_pred (n := (x :: l).length) (by simp)
    simp only [List.length_cons, Nat.add_sub_cancel] at hp ⊢
    unfold seenAtSetup
    cases r <;> cases hx : x.imp <;> simp [typeOf, hx]

theorem seenAtSetup_le (msgs : List Message) (r : Bool) : seenAtSetup msgs r ≤ msgs.length := by
  cases msgs with
  | nil => exact Nat.le_refl _
  | cons x l => simp only [seenAtSetup, List.length_cons]; split <;> omega

theorem rel_setup {w : World} {s : Spec} (h : Rel w s) (r ok : Bool) :
    Rel (setup w r ok).1 (s.setup r ok).1 ∧ (setup w r ok).2 = (s.setup r ok).2 := by
  cases ok with
  | false => exact ⟨h, by trivial⟩
  | true =>
    unfold setup Spec.setup openShm
    simp only [if_true]
    rw [h.named]
    cases hn : s.named with
    | some b =>
      simp only
      refine ⟨⟨h.nsegs, h.named, h.namedlt, by rw [h.nctx], h.seg, ?_, ?_⟩, by rw [h.nctx]⟩
      · intro c
        simp only
        rw [h.nctx]
        by_cases e : c = s.nclients
        · subst e; simp only [upd_self, Option.map_some, ctxOf, last_eq (h.seg b) r]
        · simp only [upd_ne _ _ e]; exact h.ctx c
      · intro c cl hc
        simp only at hc ⊢
        by_cases e : c = s.nclients
        · subst e; rw [upd_self] at hc; cases hc
          refine ⟨h.namedlt b hn, ?_⟩
          exact seenAtSetup_le _ _
        · rw [upd_ne _ _ e] at hc; exact h.cl c cl hc
    | none =>
      simp only
      rw [h.nsegs]
      refine ⟨⟨by simp only, rfl, ?_, by simp only [h.nctx], ?_, ?_, ?_⟩, by rw [h.nctx]⟩
      · intro b hb; simp only [Option.some.injEq] at hb ⊢; omega
      · intro b
        simp only
        by_cases e : b = s.nboxes
        · subst e; simp only [upd_self]; exact segRel_zero
        · simp only [upd_ne _ _ e]; exact h.seg b
      · intro c
        simp only
        rw [h.nctx]
        by_cases e : c = s.nclients
        · subst e; simp [ctxOf, seenAtSetup]
        · simp only [upd_ne _ _ e]; exact h.ctx c
      · intro c cl hc
        simp only at hc ⊢
        by_cases e : c = s.nclients
        · subst e; rw [upd_self] at hc; cases hc
          simp [seenAtSetup]
        · rw [upd_ne _ _ e] at hc
          obtain ⟨h1, h2⟩ := h.cl c cl hc
          exact ⟨by omega, by rw [upd_ne _ _ (by omega)]; exact h2⟩

theorem seg_send {m : Mem} {msgs : List Message} (h : SegRel m msgs) {imp : Bool} {text : List UInt8} (hlen : text.length ≤ 65532)
    (h0 : (0 : UInt8) ∉ text) :
    SegRel (upd (upd (copyTo m 2 (text ++ [0])) 1 (typeOf imp)) 0 ((upd (copyTo m 2 (text ++ [0])) 1 (typeOf imp)) 0 + 1)) (⟨imp, text⟩ :: msgs) := by
  have hc0 : (upd (copyTo m 2 (text ++ [0])) 1 (typeOf imp)) 0 = UInt8.ofNat msgs.length := by
    rw [upd_ne _ _ (by decide)]
    simp only [copyTo]
    rw [if_neg (by omega)]
    exact h.1
  refine ⟨?_, ?_, ?_, ?_, hlen, h0⟩
  · rw [upd_self, hc0, List.length_cons, UInt8.ofNat_add]; rfl
  · rw [upd_ne _ _ (by decide), upd_self]
  · intro i hi
    simp only at hi
    rw [upd_ne _ _ (by omega), upd_ne _ _ (by omega)]
    simp only [copyTo, List.length_append, List.length_cons, List.length_nil]
    rw [if_pos (by omega), show 2 + i - 2 = i by omega]
    simp [List.getD, List.getElem?_append_left hi]
  · simp only
    rw [upd_ne _ _ (by omega), upd_ne _ _ (by omega)]
    simp only [copyTo, List.length_append, List.length_cons, List.length_nil]
    rw [if_pos (by omega), show 2 + text.length - 2 = text.length by omega]
    simp [List.getD]

theorem rel_step {w : World} {s : Spec} (h : Rel w s) (op : Op) (hwf : op.wf) :
    match step w op, s.step op with
    | some (w', o), some (s', o') => Rel w' s' ∧ o = o'
    | none, none => True
    | _, _ => False := by
  cases op with
  | setup r ok =>
    have := rel_setup h r ok
    simp only [step, Spec.step]
    exact ⟨this.1, by rw [this.2]⟩
  | release hd =>
    cases hd with
    | none => simp only [step, release, Spec.step, Option.map_some]; exact ⟨h, by trivial⟩
    | some c =>
      simp only [step, release, Spec.step]
      have hc := h.ctx c
      cases hs : s.clients c with
      | none => rw [hs] at hc; rw [hc]; simp
      | some cl =>
        rw [hs] at hc; rw [hc]
        simp only [Option.map_some, and_true]
        refine ⟨h.nsegs, rfl, fun _ e => (by cases e), h.nctx, h.seg, ?_, ?_⟩
        · intro x
          simp only
          by_cases e : x = c
          · subst e; simp
          · simp only [upd_ne _ _ e]; exact h.ctx x
        · intro x cl' hx
          simp only at hx ⊢
          by_cases e : x = c
          · subst e; rw [upd_self] at hx; cases hx
          · rw [upd_ne _ _ e] at hx; exact h.cl x cl' hx
  | send hd imp text =>
    cases hd with
    | none => simp only [step, send, Spec.step, Option.map_some]; exact ⟨h, by trivial⟩
    | some c =>
      simp only [step, send, Spec.step]
      have hc := h.ctx c
      cases hs : s.clients c with
      | none => rw [hs] at hc; rw [hc]; simp
      | some cl =>
        rw [hs] at hc; rw [hc]
        simp only [Option.map_some]
        cases text with
        | none => simp only [Option.map_some]; exact ⟨h, by trivial⟩
        | some text =>
          simp only
          by_cases hl : text.length ≤ 65532
          · rw [if_neg (by unfold shmSize; omega), if_pos hl]
            simp only [Option.map_some, and_true, ctxOf]
            have hsr := seg_send (h.seg cl.box) (imp := imp) hl hwf
            have hcnt : (upd (copyTo (w.segs cl.box) 2 (text ++ [0])) 1 (typeOf imp)) 0 + 1 = UInt8.ofNat ((s.boxes cl.box).length + 1) := by
              have := hsr.1
              rw [upd_self] at this
              rw [this]; rfl
            refine ⟨h.nsegs, h.named, h.namedlt, h.nctx, ?_, ?_, ?_⟩
            · intro b
              simp only
              by_cases e : b = cl.box
              · subst e; simp only [upd_self]; exact hsr
              · simp only [upd_ne _ _ e]; exact h.seg b
            · intro x
              simp only
              by_cases e : x = c
              · subst e; simp only [upd_self, Option.map_some, ctxOf]; rw [hcnt]
              · simp only [upd_ne _ _ e]; exact h.ctx x
            · intro x cl' hx
              simp only at hx ⊢
              by_cases e : x = c
              · subst e; rw [upd_self] at hx; cases hx
                exact ⟨(h.cl _ cl hs).1, by simp⟩
              · rw [upd_ne _ _ e] at hx
                obtain ⟨h1, h2⟩ := h.cl x cl' hx
                refine ⟨h1, ?_⟩
                by_cases e2 : cl'.box = cl.box
                · rw [e2, upd_self, List.length_cons]; rw [e2] at h2; omega
                · rw [upd_ne _ _ e2]; exact h2
          · rw [if_pos (by unfold shmSize; omega), if_neg hl]
            simp only [Option.map_some, and_true]; exact h
  | poll hd b =>
    cases hd with
    | none => simp only [step, poll, Spec.step, Option.map_some]; exact ⟨h, by trivial⟩
    | some c =>
      simp only [step, poll, Spec.step]
      have hc := h.ctx c
      cases hs : s.clients c with
      | none => rw [hs] at hc; rw [hc]; simp
      | some cl =>
        rw [hs] at hc; rw [hc]
        simp only [Option.map_some, ctxOf]
        obtain ⟨hbox, hseen⟩ := h.cl c cl hs
        have hseg := h.seg cl.box
        have hcon : Rel { w with ctxs := upd w.ctxs c (some ⟨cl.box, w.segs cl.box 0⟩) }
            { s with clients := upd s.clients c (some { cl with seen := (s.boxes cl.box).length }) } := by
          refine ⟨h.nsegs, h.named, h.namedlt, h.nctx, h.seg, ?_, ?_⟩
          · intro x
            simp only
            by_cases e : x = c
            · subst e; simp only [upd_self, Option.map_some, ctxOf]; rw [hseg.1]
            · simp only [upd_ne _ _ e]; exact h.ctx x
          · intro x cl' hx
            simp only at hx ⊢
            by_cases e : x = c
            · subst e; rw [upd_self] at hx; cases hx
              exact ⟨hbox, Nat.le_refl _⟩
            · rw [upd_ne _ _ e] at hx; exact h.cl x cl' hx
        have hdec := ofNat_eq_iff hseen
        cases hm : s.boxes cl.box with
        | nil =>
          rw [hm] at hseen hdec hseg
          rw [hseg.1, if_pos (hdec.mpr (by simp))]
          simp only [Option.map_some, and_true]; exact h
        | cons msg rest =>
          rw [hm] at hseen hdec hseg hcon
          obtain ⟨g0, g1, g2, g3, g4, g5⟩ := hseg
          simp only
          by_cases hu : ((msg :: rest).length - cl.seen) % 256 = 0
          · rw [if_pos (g0 ▸ hdec.mpr hu), if_pos hu]
            simp only [Option.map_some, and_true]; exact h
          · have hne : ¬ w.segs cl.box 0 = UInt8.ofNat cl.seen := by rw [g0]; exact fun e => hu (hdec.mp e)
            rw [if_neg hne, if_neg hu]
            rw [if_neg (by rw [g1]; rcases typeOf_or msg.imp with e | e <;> rw [e] <;> decide)]
            by_cases hb : b.null = true ∨ b.size ≤ 0
            · rw [if_pos hb, if_pos hb]
              simp only [Option.map_some, and_true]; exact h
            · rw [if_neg hb, if_neg hb]
              have hnz : ∀ i, i < msg.text.length → w.segs cl.box (2 + i) ≠ 0 := by
                intro i hi e
                rw [g2 i hi] at e
                refine g5 ?_
                rw [← e]
                simp only [List.getD, List.getElem?_eq_getElem hi, Option.getD_some]
                exact List.getElem_mem hi
              rw [strlen_eq hnz g3 (by unfold shmSize; omega)]
              simp only
              by_cases hbs : b.size < msg.text.length + 1
              · rw [if_pos (by omega), if_pos hbs]
                simp only [Option.map_some, and_true]; exact hcon
              · rw [if_neg (by omega), if_neg hbs]
                simp only [Option.map_some]
                refine ⟨hcon, ?_⟩
                rw [g1, typeOf_toNat]
                congr 1
                apply List.ext_getElem
                · simp
                · intro i h1 h2
                  simp only [List.length_map, List.length_range] at h1
                  simp only [List.getElem_map, List.getElem_range]
                  by_cases hi : i < msg.text.length
                  · rw [g2 i hi, List.getElem_append_left hi]
                    simp [List.getD, List.getElem?_eq_getElem hi]
                  · have : i = msg.text.length := by omega
                    subst this
                    rw [g3]; simp

/-- Outputs of any sequence of calls are those of the mailbox. -/
theorem rel_run {w : World} {s : Spec} (h : Rel w s) (ops : List Op) (hwf : ∀ op ∈ ops, op.wf) :
    (run w ops).map (·.2) = (s.run ops).map (·.2) := by
  induction ops generalizing w s with
  | nil => rfl
  | cons op ops ih =>
    have h1 := rel_step h op (hwf op (by simp))
    simp only [run, Spec.run]
    cases e1 : step w op with
    | none =>
      cases e2 : s.step op with
      | none => rfl
      | some b => rw [e1, e2] at h1; exact h1.elim
    | some a =>
      cases e2 : s.step op with
      | none => rw [e1, e2] at h1; exact h1.elim
      | some b =>
        obtain ⟨w1, o1⟩ := a
        obtain ⟨s1, o2⟩ := b
        rw [e1, e2] at h1
        obtain ⟨h2, rfl⟩ := h1
        have hih := ih h2 fun op hop => hwf op (by simp [hop])
        simp only [Option.map_map]
        cases r1 : run w1 ops <;> cases r2 : s1.run ops <;> rw [r1, r2] at hih <;> simp_all

end FastNoise.Ipc
