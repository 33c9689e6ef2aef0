import Verif.EditorViewProj
/-! # What is shown: the operations (lemmas for C55) -/
namespace FastNoise.Editor
open FastNoise.Ser FastNoise.Stream FastNoise.Deser FastNoise.Spec FastNoise.RT FastNoise.Registry
open Relation

variable {E : Env}

/-- Everything shown is right. -/
structure VS (E : Env) (s : Ed × View) : Prop where
  ready : Ready E (ptrs s.1) s.1.arena
  cur : ∀ q ∈ ptrs s.1, s.2.text q = tx E.reg s.1.arena q
  sync : ∀ q ∈ ptrs s.1, s.2.selected = some q → s.2.text q ≠ [] → InUse E.detached (s.2.text q) s.2
  old : ∀ q, s.2.selected = some q → q < s.1.arena.length

theorem ready_of {s : Ed} (h : Inv E.reg s) (hfit : AllFit E.reg s) (hfew : s.nodes.length ≤ 65536) (hsz : s.arena.length < 2 ^ 54) : Ready E (ptrs s) s.arena where
  live p hp := by
    obtain ⟨nd, id, m, a1, a2⟩ := h.good.live p hp
    exact ⟨nd, a1, id, m, a2⟩
  closed := h.good.closed
  loops := h.loops
  fit := hfit
  size := hsz
  few := by simpa [ptrs] using hfew

theorem VS.link_lt {s : Ed × View} (h : VS E s) {q c : Nat} (hq : q ∈ ptrs s.1) (hl : LinkND s.1.arena q c) : c < s.1.arena.length := h.ready.lt (h.ready.closed q hq c hl)

theorem VS.stable (hE : EnvOK E) {s : Ed × View} (h : VS E s) : ∀ q, q ∈ ptrs s.1 → Stable E s.1.arena (tx E.reg s.1.arena) q := fun _ hq => h.ready.stable hE hq

/-- The caches follow the graph, they do not lead it. -/
theorem VS.up {s : Ed × View} (h : VS E s) {order : List Nat} {v : View} (hu : Up E order (tx E.reg s.1.arena) (· ∈ ptrs s.1) s.2 v) : VS E (s.1, v) := by
  have hc : ∀ q ∈ ptrs s.1, v.text q = tx E.reg s.1.arena q := by
    intro q hq
    rcases hu.txt q with e | e
    · rw [e]; exact h.cur q hq
    · exact e.2
  refine ⟨h.ready, hc, fun q hq hs hne => ?_, fun q hs => h.old q (by rw [← hu.sel]; exact hs)⟩
  simp only at hs hne hq ⊢
  rw [hu.sel] at hs
  rw [hc q hq] at hne ⊢
  rcases hu.use with e | ⟨x, a, b, c, d, e⟩
  · have := h.sync q hq hs (by rw [h.cur q hq]; exact hne)
    rw [h.cur q hq] at this
    exact this.same e
  · rw [hs] at a; cases a; exact e

/-- Selecting a node. -/
theorem VS.select (hE : EnvOK E) {s : Ed × View} (h : VS E s) {shown : List Nat} (hsh : ∀ q ∈ ptrs s.1, q ∈ shown) {p : Nat} {v : View} (hp : p ∈ ptrs s.1) (e : changeSelected E shown p s.2 = .ok v) : VS E (s.1, v) := by
  obtain ⟨a1, a2, a3⟩ := changeSelected_spec (by rw [h.cur p hp]; exact (h.stable hE p hp).2) e
  refine ⟨h.ready, fun q hq => by simp only; rw [a2]; exact h.cur q hq, fun q hq hs hne => ?_, fun q hs => ?_⟩
  · simp only at hs hne ⊢
    rw [a1] at hs; cases hs
    rw [a2] at hne ⊢
    rcases a3 with b | ⟨b, _⟩
    · exact b.2.2
    · rcases b with b | b
      · exact absurd (hsh p hp) b
      · exact absurd b hne
  · simp only at hs
    rw [a1] at hs; cases hs; exact h.ready.lt hp

/-- Another program selects a tree. -/
theorem VS.preview {s : Ed × View} (h : VS E s) {t : List UInt8} {v : View} (e : setPreview E (s.1.nodes.map (·.1)) t s.2 = .ok v) : VS E (s.1, v) := by
  have key : ∀ w : View, w.text = s.2.text → w.selected = s.2.selected → w.sent = s.2.sent → w.active = s.2.active → (E.detached = false → w.picture = t ∨ (t = [] ∧ w.picture = s.2.picture)) →
      VS E (s.1, setActive (s.1.nodes.map (·.1)) t w) := by
    intro w w1 w2 w3 w4 w5
    unfold setActive
    by_cases hs : selText (s.1.nodes.map (·.1)) w ≠ t
    · rw [if_pos hs]
      exact ⟨h.ready, fun q hq => by simp only; rw [w1]; exact h.cur q hq, fun q hq hs => by simp at hs, fun q hs => by simp at hs⟩
    · rw [if_neg hs]
      push Not at hs
      refine ⟨h.ready, fun q hq => by simp only; rw [w1]; exact h.cur q hq, fun q hq hq' hne => ?_, fun q hs => h.old q (by rw [← w2]; exact hs)⟩
      simp only at hq hq' hne ⊢
      unfold selText at hs
      rw [hq'] at hs
      simp only at hs
      rw [if_pos hq] at hs
      have hu := h.sync q hq (by rw [← w2]; exact hq') (by rw [← w1]; exact hne)
      rw [← w1, hs] at hu
      rw [hs] at hne ⊢
      refine ⟨rfl, by simp only; rw [w3]; exact hu.2.1, fun hd => ?_⟩
      rcases w5 hd with b | b
      · exact b
      · exact absurd b.1 hne
  unfold setPreview at e
  obtain ⟨b, _, e⟩ := out_bind e
  cases b with
  | true =>
    simp only [if_true, Out.ok.injEq] at e
    by_cases ht : t = []
    · subst ht
      rename_i hb
      rw [builds_nil] at hb; cases hb
    · rw [if_pos ht] at e
      subst e
      refine key _ ?_ ?_ ?_ ?_ ?_ <;> cases hd : E.detached <;> simp
  | false =>
    simp only [Bool.false_eq_true, if_false] at e
    split_ifs at e with ht
    · cases e; exact key _ rfl rfl rfl rfl (fun _ => Or.inr ⟨ht, rfl⟩)
    · cases e; exact h

/-- One node is changed. -/
theorem VS.edit (hE : EnvOK E) {st : Ed} {v : View} (h : VS E (st, v)) {order : List Nat} (hord : ∀ q, q ∈ order ↔ q ∈ ptrs st) {p fuel : Nat} (hp : p ∈ ptrs st) {nd' : NodeData}
    (hs : Shaped E.reg nd') (hl : ∀ c, NLink nd' c → LinkND st.arena p c ∨ (c ∈ ptrs st ∧ ¬ Reach st.arena c p))
    (hfit : ∀ q ∈ ptrs st, q ≠ p → Fits E.reg (st.arena.set p nd') q) {r : Arena × View} (e : previewV E true order fuel p (st.arena.set p nd', v) = .ok r) :
    VS E ({ st with arena := r.1 }, r.2) ∧ ∃ nd'', (nd'' = nd' ∨ nd'' = unplug nd') ∧ r.1 = st.arena.set p nd'' := by
  have hlt : p < st.arena.length := h.ready.lt hp
  have hloops : NoLoops (ptrs st) (st.arena.set p nd') := by
    refine noLoops_edit hlt h.ready.loops (Less.refl _) fun hc => ?_
    obtain ⟨c, c1, c2⟩ := cycle_set hlt hc
    rcases hl c c1 with h' | h'
    · exact h.ready.loops p hp (TransGen.head' h' c2)
    · exact h'.2 c2
  obtain ⟨nd'', a1, a2, a3⟩ := edit_ready hE (L := ptrs st) hlt hp (fun q hq _ => h.ready.live q hq) (fun q hq _ => h.ready.closed q hq) hs
    (fun c hc => (hl c hc).elim (fun x => h.ready.closed p hp c x) (·.1)) hloops hfit h.ready.size h.ready.few
  obtain ⟨b1, b2, b3, b4⟩ := edit_view hE (A0 := st.arena) a2 hp (fun q hq => (hord q).mp hq) (fun q hq => Or.inr ((hord q).mpr hq))
    (fun q hq => (List.getElem?_set_ne (Ne.symm hq)).symm) h.ready.size (fun q hq _ => h.cur q hq) (fun q hq => h.sync q ((hord q).mp hq)) (a3 v) e
  refine ⟨⟨?_, ?_, ?_, ?_⟩, nd'', a1, b1⟩
  · show Ready E (ptrs st) r.1
    rw [b1]; exact a2
  · intro q hq
    show r.2.text q = tx E.reg r.1 q
    rw [b1]; exact b3 q hq
  · intro q hq; exact b4 q ((hord q).mpr hq)
  · intro q hq
    show q < r.1.length
    rw [b1, List.length_set]
    exact h.old q (by rw [← b2]; exact hq)

theorem fits_same {reg : Reg} {A : Arena} {p q : Nat} {nd nd' : NodeData} (hn : A[p]? = some nd) (hmd : nd'.md = nd.md) (hne : q ≠ p) (h : Fits reg A q) : Fits reg (A.set p nd') q := by
  have hlt := (List.getElem?_eq_some_iff.mp hn).1
  intro i c n nc id cid m mc h1 h2 h3 h4 h5 h6 h7 h8
  rw [List.getElem?_set_ne (Ne.symm hne)] at h1
  by_cases e : c = p
  · subst e
    rw [List.getElem?_set_self hlt] at h6; cases h6
    exact h i c n nd id cid m mc h1 h2 h3 h4 h5 hn (by rw [← hmd]; exact h7) h8
  · rw [List.getElem?_set_ne (Ne.symm e)] at h6
    exact h i c n nc id cid m mc h1 h2 h3 h4 h5 h6 h7 h8

theorem VS.editNode (hE : EnvOK E) {s s' : Ed × View} (h : VS E s) {ρ} (hρ : IsOrder ρ) {p fuel : Nat} (hp : p ∈ ptrs s.1) {f : NodeData → Option NodeData}
    (hf : ∀ nd nd', s.1.arena[p]? = some nd → f nd = some nd' → Shaped E.reg nd' ∧ (∀ c, NLink nd' c → NLink nd c ∨ (c ∈ ptrs s.1 ∧ ¬ Reach s.1.arena c p)) ∧
      (nd'.md = nd.md ∨ ∀ q ∈ ptrs s.1, q ≠ p → Fits E.reg (s.1.arena.set p nd') q)) (e : editNodeV E ρ fuel p f s = .ok s') : VS E s' := by
  unfold editNodeV at e
  obtain ⟨st, v⟩ := s
  simp only at e
  cases hn : st.arena[p]? with
  | none => rw [hn] at e; cases e
  | some nd =>
    simp only [hn] at e
    cases hf' : f nd with
    | none => rw [hf'] at e; cases e
    | some nd' =>
      simp only [hf'] at e
      obtain ⟨r, e1, e2⟩ := out_bind e
      cases e2
      obtain ⟨a1, a2, a3⟩ := hf nd nd' hn hf'
      refine (h.edit hE (fun q => mem_order hρ) hp a1 (fun c hc => (a2 c hc).imp (fun x => ⟨nd, hn, x⟩) id) (fun q hq hne => ?_) e1).1
      rcases a3 with b | b
      · exact fits_same hn b hne (h.ready.fit q hq)
      · exact b q hq hne

/-- One link is deleted. -/
theorem VS.unlink (hE : EnvOK E) {s s' : Ed × View} (h : VS E s) {ρ} (hρ : IsOrder ρ) {fuel del : Nat} (e : unlinkV E ρ fuel del s = .ok s') : VS E s' := by
  obtain ⟨st, v⟩ := s
  unfold unlinkV at e
  obtain ⟨r, e1, e2⟩ := out_bind e
  cases e2
  refine (loop_rel (R := fun _ _ => True) (I := fun r : Arena × View => VS E ({ st with arena := r.1 }, r.2)) (D := fun _ _ => True) (fun _ => trivial) (fun _ _ _ _ _ => trivial)
    (fun _ _ _ _ _ => trivial) (ρ st.nodes) ?_ (st.arena, v) r h e1).1
  intro n hn r r' hI hb
  refine ⟨?_, trivial, trivial⟩
  have hp : n.1 ∈ ptrs st := List.mem_map.mpr ⟨n, (hρ _).mem_iff.mp hn, rfl⟩
  cases hx : r.1[n.1]? with
  | none => simp only [hx] at hb; cases hb
  | some nd =>
    simp only [hx] at hb
    cases hd : dropAttr del (links nd) (startAttr n.2) nd with
    | none => simp only [hd] at hb; cases hb
    | some nd' =>
      simp only [hd] at hb
      have hless := dropAttr_nless _ _ _ _ hd
      split_ifs at hb
      · obtain ⟨nd0, g1, g2⟩ := hI.ready.live n.1 hp
        simp only at g1
        rw [hx] at g1; cases g1
        exact (VS.edit (st := { st with arena := r.1 }) hE hI (fun q => mem_order hρ) hp (g2.nless hless) (fun c hc => Or.inl ⟨nd, hx, hless.nlink hc⟩)
          (fun q hq hne => fits_same hx hless.md hne (hI.ready.fit q hq)) hb).1
      · cases hb; exact hI

end FastNoise.Editor
