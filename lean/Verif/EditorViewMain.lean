import Verif.EditorViewDelete
/-! # What is shown: every operation (lemmas for C55) -/
namespace FastNoise.Editor
open FastNoise.Ser FastNoise.Stream FastNoise.Deser FastNoise.Spec FastNoise.RT FastNoise.Registry
open Relation

variable {E : Env}

theorem setLink_md {nd nd' : NodeData} {attr : Nat} {v : Option Nat} (h : setLink nd attr v = some nd') : nd'.md = nd.md := by
  unfold setLink at h
  simp only at h
  split_ifs at h
  · cases h; rfl
  · split at h
    · cases h; rfl
    · cases h

theorem addDataV_count {ρ} {fuel p : Nat} {s s' : Ed × View} (h : addDataV E ρ fuel p s = .ok s') : s'.1.nodes.length = s.1.nodes.length + 1 ∧ s'.1.arena.length = s.1.arena.length := by
  unfold addDataV at h
  cases hf : freeId (s.1.nodes.map (·.2)) fuel s.1.counter with
  | none => rw [hf] at h; cases h
  | some id =>
    simp only [hf] at h
    obtain ⟨r, h1, h2⟩ := out_bind h
    cases h2
    exact ⟨rfl, (preview_less _ _ _ _ (previewV_proj _ _ _ _ h1)).len⟩

theorem addAllV_count {ρ} {fuel : Nat} : ∀ (ps : List Nat) (s s' : Ed × View), loop (addDataV E ρ fuel) ps s = .ok s' → s'.1.nodes.length = s.1.nodes.length + ps.length ∧ s'.1.arena.length = s.1.arena.length := by
  intro ps
  induction ps with
  | nil => intro s s' h; simp only [loop, Out.ok.injEq] at h; subst h; exact ⟨rfl, rfl⟩
  | cons p ps ih =>
    intro s s' h
    obtain ⟨a, h1, h2⟩ := out_bind h
    obtain ⟨c1, c2⟩ := addDataV_count h1
    obtain ⟨d1, d2⟩ := ih _ _ h2
    exact ⟨by rw [d1, c1, List.length_cons]; omega, d2.trans c2⟩

theorem addNodeV_count {ρ} {fuel : Nat} {nd : NodeData} {s s' : Ed × View} (h : addNodeV E ρ fuel nd s = .ok s') : s'.1.nodes.length = s.1.nodes.length + 1 ∧ s'.1.arena.length = s.1.arena.length + 1 := by
  unfold addNodeV at h
  obtain ⟨r, h1, h2⟩ := out_bind h
  obtain ⟨c1, c2⟩ := addDataV_count h1
  simp only [List.length_append, List.length_cons, List.length_nil] at c1 c2
  split_ifs at h2
  · obtain ⟨v, _, h2⟩ := out_bind h2; cases h2; exact ⟨c1, c2⟩
  · cases h2; exact ⟨c1, c2⟩

theorem editNodeV_count {ρ} {fuel p : Nat} {f : NodeData → Option NodeData} {s s' : Ed × View} (h : editNodeV E ρ fuel p f s = .ok s') : s'.1.nodes = s.1.nodes ∧ s'.1.arena.length = s.1.arena.length := by
  unfold editNodeV at h
  cases hn : s.1.arena[p]? with
  | none => rw [hn] at h; cases h
  | some nd =>
    simp only [hn] at h
    cases hf : f nd with
    | none => rw [hf] at h; cases h
    | some nd' =>
      simp only [hf] at h
      obtain ⟨r, h1, h2⟩ := out_bind h
      cases h2
      have := (preview_less _ _ _ _ (previewV_proj _ _ _ _ h1)).len
      exact ⟨rfl, by simpa using this⟩

theorem nlink_shift {b : Nat} {nd : NodeData} {c : Nat} (h : NLink (shift b nd) c) : ∃ d, NLink nd d ∧ c = b + d := by
  rcases h with h | ⟨w, h⟩
  · simp only [shift, List.mem_map] at h
    obtain ⟨l, l1, l2⟩ := h
    obtain ⟨d, rfl, rfl⟩ := Option.map_eq_some_iff.mp l2
    exact ⟨d, Or.inl l1, rfl⟩
  · simp only [shift, List.mem_map] at h
    obtain ⟨l, l1, l2⟩ := h
    rw [Prod.mk.injEq] at l2
    obtain ⟨d, d1, rfl⟩ := Option.map_eq_some_iff.mp l2.1
    exact ⟨d, Or.inr ⟨l.2, by rw [← d1]; exact l1⟩, rfl⟩

theorem shaped_shift {reg : Reg} {b : Nat} {nd : NodeData} (h : Shaped reg nd) : Shaped reg (shift b nd) := by
  obtain ⟨id, m, a1, a2, a3, a4, a5⟩ := h
  exact ⟨id, m, a1, a2, a3, by simpa [shift] using a4, by simpa [shift] using a5⟩

/-- All previews again: nothing new. -/
theorem VS.again (hE : EnvOK E) {s : Ed × View} (h : VS E s) {ρ} (hρ : IsOrder ρ) {fuel : Nat} {r : Arena × View}
    (e : loop (previewV E false ((ρ s.1.nodes).map (·.1)) fuel) ((ρ s.1.nodes).map (·.1)) (s.1.arena, s.2) = .ok r) : r.1 = s.1.arena ∧ VS E (s.1, r.2) := by
  have hm : ∀ q, q ∈ (ρ s.1.nodes).map (·.1) ↔ q ∈ ptrs s.1 := fun q => mem_order hρ
  obtain ⟨a1, a2, _⟩ := loop_rel (R := fun a b : Arena × View => Up E ((ρ s.1.nodes).map (·.1)) (tx E.reg s.1.arena) (· ∈ ptrs s.1) a.2 b.2) (I := fun a => a.1 = s.1.arena) (D := fun _ _ => True)
    (fun _ => Up.refl _) (fun _ _ _ => Up.trans) (fun _ _ _ _ _ => trivial) _ (fun p hp a b hI hb => by
      obtain ⟨A, w⟩ := a
      simp only at hI
      subst hI
      obtain ⟨b1, b2, _⟩ := preview_stable (U := (· ∈ ptrs s.1)) (h.stable hE) (fun q c hq _ _ => (hm q).mp hq) fuel p w b ((hm p).mp hp) hb
      exact ⟨b1, b2, trivial⟩) _ _ rfl e
  exact ⟨a1, h.up a2⟩

/-- Everything shown stays right. -/
theorem stepV_vs (hE : EnvOK E) {ρ} (hρ : IsOrder ρ) {fuel : Nat} {s s' : Ed × View} {op : OpV} (hinv : Inv E.reg s.1) (h : VS E s) (hp : PossibleV E.reg s.1 op) (hc : Calm E.reg s.1 op)
    (e : stepV E ρ fuel s op = .ok s') (hfew : s'.1.nodes.length ≤ 65536) (hsz : s'.1.arena.length < 2 ^ 54) : Inv E.reg s'.1 ∧ VS E s' := by
  cases op with
  | graph op =>
    have hproj := stepV_proj e
    refine ⟨step_ok hE.few hρ hinv hp (fun hd => by cases op <;> first | exact hc | exact hd.elim) hproj, ?_⟩
    have shp : ∀ {p : Nat} {nd : NodeData}, p ∈ ptrs s.1 → s.1.arena[p]? = some nd → Shaped E.reg nd := fun hp hn => shaped_of_live hinv.good hp hn
    cases op with
    | add md =>
      simp only [stepV] at e
      split at e
      · cases e; exact h
      · rename_i nd hnd
        obtain ⟨s1, s2, _⟩ := newNodeData_spec hnd
        obtain ⟨c1, c2⟩ := addNodeV_count e
        exact (h.addNode hE hρ s1 s2 (by omega) (by omega) e).1
    | addEncoded text =>
      simp only [stepV] at e
      split at e
      · cases e
      · cases e
      · cases e; exact h
      · rename_i root nds hnds
        obtain ⟨bytes, hb, _⟩ := Base64.C02_decode_safe text hp
        simp only [deserialiseNodeData, hb] at hnds
        have hacy := (C07_nodedata_acyclic E.reg bytes root nds hnds).1
        have hval : ValidND E.reg root nds := by
          rcases C06_decode_nodedata_total E.reg bytes with h0 | ⟨r, n, h1, h2⟩
          · rw [h0] at hnds; cases hnds
          · rw [h1] at hnds; cases hnds; exact h2
        obtain ⟨st, v⟩ := s
        simp only at e hinv
        obtain ⟨r, e1, e2⟩ := out_bind e
        obtain ⟨c1, c2⟩ := addAllV_count _ _ _ e1
        have hr1 : r.1 = s'.1 := by
          split_ifs at e2
          · obtain ⟨w, _, e2⟩ := out_bind e2; cases e2; rfl
          · cases e2; rfl
        simp only [List.length_map, List.length_range, List.length_append] at c1 c2
        rw [hr1] at c1 c2
        have h' := h.more hE (nds.map (shift st.arena.length)) (by rw [List.length_append, List.length_map, ← c2]; exact hsz)
        rw [List.range_eq_range'] at e1
        obtain ⟨d1, d2⟩ := VS.addAll hE hρ (b := st.arena.length) (nds := nds.map (shift st.arena.length)) (L0 := ptrs st)
          (by intro n hn; obtain ⟨m, m1, rfl⟩ := List.mem_map.mp hn; exact shaped_shift (hval.shape m m1)) nds.length 0 _ r h' (by simp)
          (fun q => ⟨Or.inr, fun c => c.elim (fun c => by omega) id⟩) (fun q hq => h.ready.lt hq)
          (fun j _ => by
            simp only
            rw [List.getElem?_append_right (by omega)]
            congr 1; omega)
          (fun j n hn c hcl => by
            rw [List.getElem?_map, Option.map_eq_some_iff] at hn
            obtain ⟨m, m1, rfl⟩ := hn
            obtain ⟨d, d1, rfl⟩ := nlink_shift hcl
            have := hacy j d ⟨m, m1, d1⟩
            omega) (fun q hq => h.old q hq) (by simp only; omega) e1
        split_ifs at e2
        · obtain ⟨w, w1, w2⟩ := out_bind e2
          cases w2
          refine d1.select hE (fun q hq => hq) ((d2 _).mpr (Or.inl ⟨by omega, ?_⟩)) w1
          have := hval.root
          simp only [List.length_map]
          omega
        · cases e2; exact d1
    | link a b attr snap =>
      simp only [stepV] at e
      split at e
      · rename_i ps pe h1 h2
        split at e
        · cases e
        · rename_i l hl
          split_ifs at e
          · refine h.editNode hE hρ (find_ptr h2) ?_ e
            intro nd nd' hn hn'
            obtain ⟨k, hk, rfl⟩ := hp pe nd (find_mem h2) hn
            obtain ⟨nd'', a1, a2, a3, _⟩ := link_edit (ps := ps) hE.few hinv (find_mem h2) hn hk
            rw [a1] at hn'; cases hn'
            refine ⟨a2, fun c hcc => ?_, Or.inl (setLink_md a1)⟩
            rcases a3 c hcc with h' | rfl
            · exact Or.inl h'
            · exact Or.inr ⟨find_ptr h1, hc c pe (find_mem h1) (find_mem h2)⟩
          · cases e; exact h
      · cases e; exact h
    | unlink attr => exact h.unlink hE hρ e
    | delete id =>
      simp only [stepV] at e
      split at e
      · rename_i p h1; exact h.delete hE hinv hρ (find_ptr h1) (hc p (find_mem h1)) e
      · cases e; exact h
    | convert id md same =>
      simp only [stepV] at e
      split at e
      · rename_i p m h1 hm
        refine h.editNode hE hρ (find_ptr h1) ?_ e
        intro nd nd' hn hn'
        obtain ⟨a1, a2, a3⟩ := converted_spec hn'
        refine ⟨a1, fun c hcc => Or.inl (a3 c hcc), Or.inr fun q hq hne => ?_⟩
        have hlt := (List.getElem?_eq_some_iff.mp hn).1
        intro i c nq nc idq cid mq mc g1 g2 g3 g4 g5 g6 g7 g8
        rw [List.getElem?_set_ne (Ne.symm hne)] at g1
        by_cases ec : c = p
        · subst ec
          rw [List.getElem?_set_self hlt] at g6; cases g6
          rw [a2] at g7; cases g7
          rw [hm] at g8; cases g8
          exact hc c m q i nq idq mq (find_mem h1) hm (mem_ptrs.mp hq) g1 g2 g3 g4 g5
        · rw [List.getElem?_set_ne (Ne.symm ec)] at g6
          exact h.ready.fit q hq i c nq nc idq cid mq mc g1 g2 g3 g4 g5 g6 g7 g8
      · cases e; exact h
    | setVar id i w =>
      simp only [stepV] at e
      split at e
      · rename_i p h1
        refine h.editNode hE hρ (find_ptr h1) ?_ e
        intro nd nd' hn hn'
        split_ifs at hn'
        cases hn'
        obtain ⟨a1, a2⟩ := setVar_spec (shp (find_ptr h1) hn) i w
        exact ⟨a1, fun c hcc => Or.inl (a2 c hcc), Or.inl rfl⟩
      · cases e; exact h
    | setHybrid id i w =>
      simp only [stepV] at e
      split at e
      · rename_i p h1
        refine h.editNode hE hρ (find_ptr h1) ?_ e
        intro nd nd' hn hn'
        rw [Option.map_eq_some_iff] at hn'
        obtain ⟨y, hy, rfl⟩ := hn'
        obtain ⟨a1, a2⟩ := setHybrid_spec (shp (find_ptr h1) hn) i w y hy
        exact ⟨a1, fun c hcc => Or.inl (a2 c hcc), Or.inl rfl⟩
      · cases e; exact h
    | drop attr =>
      simp only [stepV] at e
      split at e
      · split_ifs at e <;> cases e
        · exact ⟨h.ready, h.cur, h.sync, h.old⟩
        · exact h
      · cases e; exact h
    | addDropped md =>
      simp only [stepV] at e
      split at e
      · cases e; exact h
      · rename_i nd hnd
        obtain ⟨s1, s2, m0, hm0, hlen0⟩ := newNodeData_spec hnd
        obtain ⟨r, e1, e2⟩ := out_bind e
        obtain ⟨c1, c2⟩ := addNodeV_count e1
        obtain ⟨k1, k2⟩ := editNodeV_count e2
        rw [k1] at hfew
        obtain ⟨a1, a2, _, nd'', a4, a5⟩ := h.addNode hE hρ s1 s2 (by omega) (by omega) e1
        have hmem : s.1.arena.length ∈ ptrs r.1 := by rw [a2]; simp
        have hl'' : ∀ c, ¬ NLink nd'' c := by
          intro c hcc
          rcases a4 with rfl | rfl
          · exact s2 c hcc
          · rcases hcc with h' | h'
            · rcases List.mem_or_eq_of_mem_set h' with h' | h'
              · exact s2 c (Or.inl h')
              · cases h'
            · exact s2 c (Or.inr h')
        refine a1.editNode hE hρ hmem ?_ e2
        intro n n' hn hn'
        have hn0 : n = nd'' := by rw [a5] at hn; simpa using hn.symm
        subst hn0
        obtain ⟨n1, g1, g2⟩ := a1.ready.live _ hmem
        rw [hn] at g1; cases g1
        have hlen : 0 < (links n).length := by
          have : (links n).length = (links nd).length := by
            rcases a4 with rfl | rfl
            · rfl
            · simp [length_links, unplug]
          rw [this, hlen0]; exact hp m0 hm0
        obtain ⟨n'', d0, d1, d2, d3, d4, d5⟩ := setLink0 hlen (g2.few hE.few) s.1.dropped
        rw [d0] at hn'; cases hn'
        refine ⟨g2.of_setLink d1 d2 d3 d4, fun c hcc => ?_, Or.inl d1⟩
        rcases nlink_of_links d5 hcc with h' | h'
        · exact Or.inl h'
        · right
          have hcm : c ∈ ptrs s.1 := mem_ptrs.mpr (hc c h')
          refine ⟨by rw [a2]; exact List.mem_cons_of_mem _ hcm, fun hr => ?_⟩
          have hstay : ∀ q, Reach r.1.arena c q → q ∈ ptrs s.1 := by
            intro q hq
            induction hq with
            | refl => exact hcm
            | tail _ hl ih =>
              rename_i y z _
              have hy := h.ready.lt ih
              refine h.ready.closed y ih z ?_
              unfold LinkND at hl ⊢
              rwa [a5, List.getElem?_append_left hy] at hl
          exact absurd (h.ready.lt (hstay _ hr)) (lt_irrefl _)
    | bench id =>
      simp only [stepV] at e
      split at e
      · rename_i p h1
        obtain ⟨r, e1, e2⟩ := out_bind e
        rw [renew_stable (h.stable hE p (find_ptr h1)) s.2] at e1
        cases e1
        cases e2
        exact h.up (order := []) (setText_up (find_ptr h1))
      · cases e; exact h
    | clear =>
      simp only [stepV] at e
      obtain ⟨w, e1, e2⟩ := out_bind e
      cases e2
      have hw : w.selected = none := by
        unfold setPreview at e1
        rw [builds_nil] at e1
        simp only [Out.bind, Bool.false_eq_true, if_false, if_true, Out.ok.injEq] at e1
        subst e1
        simp [setActive]
      refine ⟨⟨?_, ?_, ?_, ?_, hsz, by simp [ptrs]⟩, ?_, ?_, fun q hq => by simp only at hq; rw [hw] at hq; cases hq⟩ <;> intro q hq <;> simp [ptrs] at hq
  | select id =>
    simp only [stepV] at e
    split at e
    · rename_i p h1
      obtain ⟨w, e1, e2⟩ := out_bind e
      cases e2
      exact ⟨hinv, h.select hE (fun q hq => hq) (find_ptr h1) e1⟩
    · cases e; exact ⟨hinv, h⟩
  | received text =>
    simp only [stepV] at e
    obtain ⟨w, e1, e2⟩ := out_bind e
    cases e2
    exact ⟨hinv, h.preview e1⟩
  | settings =>
    simp only [stepV] at e
    obtain ⟨r, e1, e2⟩ := out_bind e
    cases e2
    obtain ⟨a1, a2⟩ := h.again hE hρ e1
    simp only
    rw [a1]
    exact ⟨hinv, a2.ready, a2.cur, a2.sync, a2.old⟩
  | simd =>
    simp only [stepV] at e
    obtain ⟨r, e1, e2⟩ := out_bind e
    obtain ⟨w, e4, e3⟩ := out_bind e2
    cases e3
    obtain ⟨a1, a2⟩ := h.again hE hρ e1
    simp only
    rw [a1]
    exact ⟨hinv, VS.preview (s := (s.1, r.2)) a2 e4⟩

theorem vs_start : Inv E.reg init ∧ VS E (init, View.init) := by
  refine ⟨⟨⟨?_, ?_, ?_⟩, ?_, ?_, ?_, ?_, ?_, by decide⟩, ⟨⟨?_, ?_, ?_, ?_, by decide, by decide⟩, ?_, ?_, ?_⟩⟩
  all_goals first | (intro p hp; simp [ptrs, ids, init, View.init] at hp) | (simp [ptrs, ids, init, View.init])
  rintro c ⟨n, hn, _⟩
  simp [init] at hn

theorem vs_of_session (hE : EnvOK E) {s : Ed × View} (h : SessionV E s) : Inv E.reg s.1 ∧ VS E s := by
  induction h with
  | start => exact vs_start
  | step _ hρ hp hc e hf hz ih => exact stepV_vs hE hρ ih.1 ih.2 hp hc e hf hz

end FastNoise.Editor
