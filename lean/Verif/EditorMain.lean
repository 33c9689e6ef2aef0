import Verif.EditorSpec
import Verif.EditorSteps
/-! # Lemmas for C35 about all operations -/
namespace FastNoise.Editor
open FastNoise.Ser FastNoise.Deser FastNoise.Stream FastNoise.Spec FastNoise.RT
open Relation

theorem mem_ptrs {st : Ed} {p : Nat} : p ∈ ptrs st ↔ Shown st p := by
  simp only [ptrs, List.mem_map, Shown]
  constructor
  · rintro ⟨⟨a, b⟩, h, rfl⟩; exact ⟨b, h⟩
  · rintro ⟨b, h⟩; exact ⟨(p, b), h, rfl⟩

theorem few_reg : FewLinks Registry.reg := by unfold FewLinks; decide +kernel

theorem sound_of_inv {reg : Reg} {st : Ed} (h : Inv reg st) : Sound reg st where
  alive p hp := h.good.live p (mem_ptrs.mpr hp)
  linked p c hp hc := mem_ptrs.mp (h.good.closed p (mem_ptrs.mpr hp) c hc)
  acyclic p hp := h.loops p (mem_ptrs.mpr hp)
  unique p q i j h1 h2 := by
    constructor
    · rintro rfl
      have := List.inj_on_of_nodup_map h.pnd h1 h2 rfl
      simpa using this
    · rintro rfl
      have := List.inj_on_of_nodup_map h.idnd h1 h2 rfl
      simpa using this
  range p i h1 := by
    have := h.idr i (List.mem_map.mpr ⟨_, h1, rfl⟩)
    rw [maxId_eq] at this; omega

/-- The edit of a link. -/
theorem link_edit {reg : Reg} {st : Ed} (hr : FewLinks reg) (h : Inv reg st) {ps pe e k : Nat} (he : (pe, e) ∈ st.nodes) {nd : NodeData}
    (hn : st.arena[pe]? = some nd) (hk : k < nd.lookups.length + nd.hybrids.length) :
    ∃ nd', setLink nd (startAttr e + k) (some ps) = some nd' ∧ Shaped reg nd' ∧ (∀ c, NLink nd' c → NLink nd c ∨ c = ps) ∧ links nd' = (links nd).set k (some ps) := by
  obtain ⟨p1, p2⟩ := ptr_id h he
  have hsh := shaped_of_live h.good p1 hn
  obtain ⟨nd', a0, a1, a2, a3, a4, a5⟩ := setLink_spec p2 (by rw [length_links]; exact hk) (hsh.few hr) (some ps)
  refine ⟨nd', a0, hsh.of_setLink a1 a2 a3 a4, fun c hc => ?_, a5⟩
  rcases nlink_of_links a5 hc with h | h
  · exact Or.inl h
  · cases h; exact Or.inr rfl

theorem closed_nd {reg : Reg} {st : Ed} (h : Inv reg st) {p : Nat} (hp : p ∈ ptrs st) {nd : NodeData} (hn : st.arena[p]? = some nd) {c : Nat} (hc : NLink nd c) : c ∈ ptrs st :=
  h.good.closed p hp c ⟨nd, hn, hc⟩

theorem setVar_spec {reg : Reg} {nd : NodeData} (h : Shaped reg nd) (i : Nat) (v : UInt32) :
    Shaped reg { nd with vars := nd.vars.set i v } ∧ ∀ c, NLink { nd with vars := nd.vars.set i v } c → NLink nd c := by
  obtain ⟨id, m, a1, a2, a3, a4, a5⟩ := h
  exact ⟨⟨id, m, a1, a2, by simpa using a3, a4, a5⟩, fun c hc => hc⟩

theorem setHybrid_spec {reg : Reg} {nd : NodeData} (h : Shaped reg nd) (i : Nat) (v : UInt32) (x : Option Nat × UInt32) (hx : nd.hybrids[i]? = some x) :
    Shaped reg { nd with hybrids := nd.hybrids.set i (x.1, v) } ∧ ∀ c, NLink { nd with hybrids := nd.hybrids.set i (x.1, v) } c → NLink nd c := by
  obtain ⟨id, m, a1, a2, a3, a4, a5⟩ := h
  refine ⟨⟨id, m, a1, a2, a3, a4, by simpa using a5⟩, ?_⟩
  rintro c (hc | ⟨w, hc⟩)
  · exact Or.inl hc
  · simp only at hc
    rcases List.mem_or_eq_of_mem_set hc with h1 | h1
    · exact Or.inr ⟨w, h1⟩
    · have h2 : x.1 = some c := (Prod.mk.inj h1).1.symm
      exact Or.inr ⟨x.2, by rw [← h2]; exact List.mem_of_getElem? hx⟩

/-- Every operation the interface offers keeps the graph sound. -/
theorem step_ok {reg : Reg} (hr : FewLinks reg) {ρ fuel} {st st' : Ed} {op : Op} (hρ : IsOrder ρ) (h : Inv reg st) (hp : Possible reg st op) (hd : IsAddDropped op → DropAlive st)
    (e : step reg ρ fuel st op = .ok st') : Inv reg st' := by
  cases op with
  | add md =>
    simp only [step] at e
    split at e
    · cases e; exact h
    · rename_i nd hnd
      obtain ⟨s1, s2, _⟩ := newNodeData_spec hnd
      exact (addNew_ok h s1 s2 e).1
  | addEncoded text =>
    simp only [step] at e
    split at e
    · cases e
    · cases e
    · cases e; exact h
    · rename_i root nds hnds
      obtain ⟨bytes, hb, _⟩ := Base64.C02_decode_safe text hp
      simp only [deserialiseNodeData, hb] at hnds
      have hacy := (C07_nodedata_acyclic reg bytes root nds hnds).1
      have hval : ∀ n ∈ nds, Shaped reg n := by
        rcases C06_decode_nodedata_total reg bytes with h0 | ⟨r, n, h1, h2⟩
        · rw [h0] at hnds; cases hnds
        · rw [h1] at hnds; cases hnds
          intro n hn
          exact h2.shape n hn
      obtain ⟨a, b, c⟩ := pre_append h hval hacy
      obtain ⟨d1, d2, _⟩ := addAll_ok _ _ _ a (fun p hp => List.mem_append_left _ hp) c b e
      refine inv_of_pre d1 fun p hp => (d2 p).mpr ?_
      exact List.mem_append.mp hp
  | link s e' attr snap =>
    simp only [step] at e
    split at e
    · rename_i ps pe h1 h2
      split at e
      · cases e
      · rename_i l hl
        split_ifs at e
        · refine (editNode_ok hρ h (find_ptr h2) ?_ e).1
          intro nd nd' hn hn'
          obtain ⟨k, hk, rfl⟩ := hp pe nd (find_mem h2) hn
          obtain ⟨nd'', a1, a2, a3, _⟩ := link_edit (ps := ps) hr h (find_mem h2) hn hk
          rw [a1] at hn'; cases hn'
          refine ⟨a2, fun c hc => ?_⟩
          rcases a3 c hc with h' | rfl
          · exact closed_nd h (find_ptr h2) hn h'
          · exact find_ptr h1
        · cases e; exact h
    · cases e; exact h
  | unlink attr => exact (unlink_ok h e).1
  | delete id =>
    simp only [step] at e
    split at e
    · rename_i p h1; exact (delete_ok hr hρ h (find_ptr h1) e).1
    · cases e; exact h
  | convert id md same =>
    simp only [step] at e
    split at e
    · rename_i p _ h1 _
      refine (editNode_ok hρ h (find_ptr h1) ?_ e).1
      intro nd nd' hn hn'
      obtain ⟨a1, _, a2⟩ := converted_spec hn'
      exact ⟨a1, fun c hc => closed_nd h (find_ptr h1) hn (a2 c hc)⟩
    · cases e; exact h
  | setVar id i v =>
    simp only [step] at e
    split at e
    · rename_i p h1
      refine (editNode_ok hρ h (find_ptr h1) ?_ e).1
      intro nd nd' hn hn'
      split_ifs at hn'
      cases hn'
      obtain ⟨a1, a2⟩ := setVar_spec (shaped_of_live h.good (find_ptr h1) hn) i v
      exact ⟨a1, fun c hc => closed_nd h (find_ptr h1) hn (a2 c hc)⟩
    · cases e; exact h
  | setHybrid id i v =>
    simp only [step] at e
    split at e
    · rename_i p h1
      refine (editNode_ok hρ h (find_ptr h1) ?_ e).1
      intro nd nd' hn hn'
      rw [Option.map_eq_some_iff] at hn'
      obtain ⟨x, hx, rfl⟩ := hn'
      obtain ⟨a1, a2⟩ := setHybrid_spec (shaped_of_live h.good (find_ptr h1) hn) i v x hx
      exact ⟨a1, fun c hc => closed_nd h (find_ptr h1) hn (a2 c hc)⟩
    · cases e; exact h
  | drop attr =>
    simp only [step] at e
    split at e
    · split_ifs at e <;> cases e
      · exact ⟨h.good, h.loops, h.sub, h.pnd, h.idnd, h.idr, h.ctr⟩
      · exact h
    · cases e; exact h
  | addDropped md =>
    simp only [step] at e
    split at e
    · cases e; exact h
    · rename_i nd hnd
      obtain ⟨s1, s2, _⟩ := newNodeData_spec hnd
      cases ha : addData reg ρ fuel { st with arena := st.arena ++ [nd] } st.arena.length with
      | ub => rw [ha] at e; cases e
      | deep => rw [ha] at e; cases e
      | ok st1 =>
        rw [ha] at e
        simp only [Out.bind] at e
        obtain ⟨b1, b2, b3, b4⟩ := addNew_ok h s1 s2 ha
        have hm : st.arena.length ∈ ptrs st1 := by rw [b2]; simp
        refine (editNode_ok hρ b1 hm ?_ e).1
        intro n n' hn hn'
        have hsh := shaped_of_live b1.good hm hn
        have hlen : 0 < (links n).length := by
          obtain ⟨_, _, m, hm, hl⟩ := newNodeData_spec hnd
          have hs := b4.node st.arena.length nd n (by simp) hn
          rw [NLess.llinks hs, hl]; exact hp m hm
        obtain ⟨n'', c0, c1, c2, c3, c4, c5⟩ := setLink0 hlen (hsh.few hr) st.dropped
        rw [c0] at hn'; cases hn'
        refine ⟨hsh.of_setLink c1 c2 c3 c4, fun c hc => ?_⟩
        rcases nlink_of_links c5 hc with h' | h'
        · exact closed_nd b1 hm hn h'
        · rw [b2]; exact List.mem_cons_of_mem _ (mem_ptrs.mpr (hd trivial c h'))
  | bench id =>
    simp only [step] at e
    split at e
    · rename_i p h1
      cases hf : fixOne reg p st.arena with
      | ub => rw [hf] at e; cases e
      | deep => rw [hf] at e; cases e
      | ok A => rw [hf] at e; cases e; exact pre_less h (fixOne_less hf)
    · cases e; exact h
  | clear => simp only [step] at e; cases e; exact clear_ok h

/-! ## No undefined behaviour -/

theorem step_safe {reg : Reg} (hr : FewLinks reg) {ρ fuel} {st : Ed} {op : Op} (hρ : IsOrder ρ) (h : Inv reg st) (hp : Possible reg st op) (hd : IsAddDropped op → DropAlive st)
    (hu : ∀ id p, op = .delete id → (p, id) ∈ st.nodes → Unshared st.arena p ∧ st.nodes.length < fuel) (hn : ∀ attr, op = .unlink attr → st.nodes.length < fuel) :
    step reg ρ fuel st op ≠ .ub := by
  cases op with
  | add md =>
    simp only [step]
    split
    · intro h; cases h
    · rename_i nd hnd
      obtain ⟨s1, s2, _⟩ := newNodeData_spec hnd
      exact addNew_safe hρ h s1 s2
  | addEncoded text =>
    simp only [step]
    obtain ⟨bytes, hb, _⟩ := Base64.C02_decode_safe text hp
    simp only [deserialiseNodeData, hb]
    rcases C06_decode_nodedata_total reg bytes with h0 | ⟨r, nds, h1, h2⟩
    · rw [h0]; intro h; cases h
    · rw [h1]
      obtain ⟨a, b, c⟩ := pre_append h h2.shape (C07_nodedata_acyclic reg bytes r nds h1).1
      exact addAll_safe hρ _ _ a (fun p hp => List.mem_append_left _ hp) c b
  | link s e attr snap =>
    simp only [step]
    split
    · rename_i ps pe h1 h2
      have hn0 := List.getElem?_eq_getElem (h.good.lt (find_ptr h2))
      obtain ⟨k, hk, rfl⟩ := hp pe _ (find_mem h2) hn0
      have hsh := shaped_of_live h.good (find_ptr h2) hn0
      have hgl := getLink_spec (ptr_id h (find_mem h2)).2 (by rw [length_links]; exact hk) (hsh.few hr)
      rw [hn0]
      simp only [Option.bind_some, hgl]
      rw [List.getElem?_eq_getElem (by rw [length_links]; exact hk)]
      simp only
      split_ifs
      · refine editNode_safe hρ h (find_ptr h2) ?_
        intro nd hn
        obtain ⟨k', hk', e'⟩ := hp pe nd (find_mem h2) hn
        obtain ⟨nd', a1, a2, a3, _⟩ := link_edit (ps := ps) hr h (find_mem h2) hn hk'
        refine ⟨nd', by rw [e']; exact a1, a2, fun c hc => ?_⟩
        rcases a3 c hc with h' | rfl
        · exact closed_nd h (find_ptr h2) hn h'
        · exact find_ptr h1
      · intro h; cases h
    · intro h; cases h
  | unlink attr =>
    obtain ⟨st', e⟩ := unlink_safe (del := attr) hr hρ h (hn attr rfl)
    simp only [step, e]; intro h; cases h
  | delete id =>
    simp only [step]
    split
    · rename_i p h1
      obtain ⟨u1, u2⟩ := hu id p rfl (find_mem h1)
      obtain ⟨st', e⟩ := delete_safe hr hρ h u2 (find_ptr h1) u1
      rw [e]; intro h; cases h
    · intro h; cases h
  | convert id md same =>
    simp only [step]
    split
    · rename_i p m h1 hm
      refine editNode_safe hρ h (find_ptr h1) ?_
      intro nd hn
      obtain ⟨nd', hn'⟩ : ∃ nd', converted reg nd md same = some nd' := by
        unfold converted newNodeData; rw [hm]; exact ⟨_, rfl⟩
      obtain ⟨a1, _, a2⟩ := converted_spec hn'
      exact ⟨nd', hn', a1, fun c hc => closed_nd h (find_ptr h1) hn (a2 c hc)⟩
    · intro h; cases h
  | setVar id i v =>
    simp only [step]
    split
    · rename_i p h1
      refine editNode_safe hρ h (find_ptr h1) ?_
      intro nd hn
      obtain ⟨a1, a2⟩ := setVar_spec (shaped_of_live h.good (find_ptr h1) hn) i v
      exact ⟨_, by rw [if_pos (hp p nd (find_mem h1) hn)], a1, fun c hc => closed_nd h (find_ptr h1) hn (a2 c hc)⟩
    · intro h; cases h
  | setHybrid id i v =>
    simp only [step]
    split
    · rename_i p h1
      refine editNode_safe hρ h (find_ptr h1) ?_
      intro nd hn
      have hx := List.getElem?_eq_getElem (hp p nd (find_mem h1) hn)
      obtain ⟨a1, a2⟩ := setHybrid_spec (shaped_of_live h.good (find_ptr h1) hn) i v _ hx
      exact ⟨_, by rw [hx]; rfl, a1, fun c hc => closed_nd h (find_ptr h1) hn (a2 c hc)⟩
    · intro h; cases h
  | drop attr =>
    simp only [step]
    split
    · split_ifs <;> (intro h; cases h)
    · intro h; cases h
  | addDropped md =>
    simp only [step]
    split
    · intro h; cases h
    · rename_i nd hnd
      obtain ⟨s1, s2, _⟩ := newNodeData_spec hnd
      have hs := addNew_safe (fuel := fuel) hρ h s1 s2
      cases ha : addData reg ρ fuel { st with arena := st.arena ++ [nd] } st.arena.length with
      | ub => exact absurd ha hs
      | deep => intro h; cases h
      | ok st1 =>
        simp only [Out.bind]
        obtain ⟨b1, b2, b3, b4⟩ := addNew_ok h s1 s2 ha
        have hm : st.arena.length ∈ ptrs st1 := by rw [b2]; simp
        refine editNode_safe hρ b1 hm ?_
        intro n hn
        have hsh := shaped_of_live b1.good hm hn
        have hlen : 0 < (links n).length := by
          obtain ⟨_, _, m, hm, hl⟩ := newNodeData_spec hnd
          have hs := b4.node st.arena.length nd n (by simp) hn
          rw [NLess.llinks hs, hl]; exact hp m hm
        obtain ⟨n'', c0, c1, c2, c3, c4, c5⟩ := setLink0 hlen (hsh.few hr) st.dropped
        refine ⟨n'', c0, hsh.of_setLink c1 c2 c3 c4, fun c hc => ?_⟩
        rcases nlink_of_links c5 hc with h' | h'
        · exact closed_nd b1 hm hn h'
        · rw [b2]; exact List.mem_cons_of_mem _ (mem_ptrs.mpr (hd trivial c h'))
  | bench id =>
    simp only [step]
    split
    · rename_i p h1
      obtain ⟨A, hA⟩ := fixOne_ok (h.good.hasMeta (find_ptr h1))
      rw [hA]; intro h; cases h
    · intro h; cases h
  | clear => simp only [step]; intro h; cases h

/-! ## Termination -/

/-- Edits that add no link. -/
theorem edit_stops {reg : Reg} {ρ fuel} {st : Ed} {p : Nat} {f : NodeData → Option NodeData} (hρ : IsOrder ρ) (h : Inv reg st) (hp : p ∈ ptrs st) (hfu : st.nodes.length < fuel)
    (hf : ∀ nd nd', st.arena[p]? = some nd → f nd = some nd' → Shaped reg nd' ∧ ∀ c, NLink nd' c → NLink nd c ∨ (c ∈ ptrs st ∧ ¬ Reach st.arena c p)) :
    editNode reg ρ fuel st p f ≠ .deep := by
  refine editNode_stops hρ h hp hfu ?_
  intro nd nd' hn hn'
  obtain ⟨a1, a2⟩ := hf nd nd' hn hn'
  refine ⟨⟨a1, fun c hc => ?_⟩, fun hc => ?_⟩
  · rcases a2 c hc with h' | h'
    · exact closed_nd h hp hn h'
    · exact h'.1
  · obtain ⟨c, hc, hr⟩ := cycle_set (h.good.lt hp) hc
    rcases a2 c hc with h' | h'
    · exact h.loops p hp (TransGen.head' ⟨nd, hn, h'⟩ hr)
    · exact h'.2 hr

/-- The number of nodes an operation adds. -/
def added (reg : Reg) : Op → Nat
  | .add _ => 1
  | .addDropped _ => 1
  | .addEncoded text => match deserialiseNodeData reg text with
    | .tree _ nds => nds.length
    | _ => 0
  | _ => 0

theorem step_stops {reg : Reg} (hr : FewLinks reg) {ρ fuel} {st : Ed} {op : Op} (hρ : IsOrder ρ) (h : Inv reg st) (hp : Possible reg st op) (hd : IsAddDropped op → DropAlive st)
    (hu : ∀ id p, op = .delete id → (p, id) ∈ st.nodes → Unshared st.arena p)
    (hl : ∀ s e attr snap ps pe, op = .link s e attr snap → (ps, s) ∈ st.nodes → (pe, e) ∈ st.nodes → ¬ Reach st.arena ps pe)
    (hroom : st.nodes.length + added reg op ≤ maxId) (hfu : maxId + st.nodes.length + added reg op < fuel) :
    step reg ρ fuel st op ≠ .deep := by
  cases op with
  | add md =>
    simp only [step]
    simp only [added] at hroom hfu
    split
    · intro h; cases h
    · rename_i nd hnd
      obtain ⟨s1, s2, _⟩ := newNodeData_spec hnd
      exact addNew_stops hρ h s1 s2 (by rw [maxId_eq] at hfu; omega) (by omega) (by omega)
  | addEncoded text =>
    simp only [step]
    obtain ⟨bytes, hb, _⟩ := Base64.C02_decode_safe text hp
    simp only [added, deserialiseNodeData, hb] at hroom hfu ⊢
    rcases C06_decode_nodedata_total reg bytes with h0 | ⟨r, nds, h1, h2⟩
    · rw [h0]; intro h; cases h
    · rw [h1] at hroom hfu ⊢
      obtain ⟨a, b, c⟩ := pre_append h h2.shape (C07_nodedata_acyclic reg bytes r nds h1).1
      refine addAll_stops hρ ?_ (by omega) _ _ a (fun p hp => List.mem_append_left _ hp) c b ?_
      · simp only [List.length_append, List.length_map, List.length_range, ptrs]
        simp only at hfu
        rw [maxId_eq] at hfu; omega
      · simp only [List.length_map, List.length_range]; exact hroom
  | link s e attr snap =>
    simp only [step]
    simp only [added] at hroom hfu
    split
    · rename_i ps pe h1 h2
      split
      · intro h; cases h
      · split_ifs
        · refine edit_stops hρ h (find_ptr h2) (by omega) ?_
          intro nd nd' hn hn'
          obtain ⟨k', hk', e'⟩ := hp pe nd (find_mem h2) hn
          obtain ⟨nd'', a1, a2, a3, _⟩ := link_edit (ps := ps) hr h (find_mem h2) hn hk'
          rw [e', a1] at hn'; cases hn'
          refine ⟨a2, fun c hc => ?_⟩
          rcases a3 c hc with h' | rfl
          · exact Or.inl h'
          · exact Or.inr ⟨find_ptr h1, hl s e attr snap _ _ rfl (find_mem h1) (find_mem h2)⟩
        · intro h; cases h
    · intro h; cases h
  | unlink attr =>
    simp only [added] at hroom hfu
    obtain ⟨st', e⟩ := unlink_safe (fuel := fuel) (del := attr) hr hρ h (by omega)
    simp only [step, e]; intro h; cases h
  | delete id =>
    simp only [step]
    simp only [added] at hroom hfu
    split
    · rename_i p h1
      obtain ⟨st', e⟩ := delete_safe (fuel := fuel) hr hρ h (by omega) (find_ptr h1) (hu id p rfl (find_mem h1))
      rw [e]; intro h; cases h
    · intro h; cases h
  | convert id md same =>
    simp only [step]
    simp only [added] at hroom hfu
    split
    · rename_i p m h1 hm
      refine edit_stops hρ h (find_ptr h1) (by omega) ?_
      intro nd nd' hn hn'
      obtain ⟨a1, _, a2⟩ := converted_spec hn'
      exact ⟨a1, fun c hc => Or.inl (a2 c hc)⟩
    · intro h; cases h
  | setVar id i v =>
    simp only [step]
    simp only [added] at hroom hfu
    split
    · rename_i p h1
      refine edit_stops hρ h (find_ptr h1) (by omega) ?_
      intro nd nd' hn hn'
      split_ifs at hn'
      cases hn'
      obtain ⟨a1, a2⟩ := setVar_spec (shaped_of_live h.good (find_ptr h1) hn) i v
      exact ⟨a1, fun c hc => Or.inl (a2 c hc)⟩
    · intro h; cases h
  | setHybrid id i v =>
    simp only [step]
    simp only [added] at hroom hfu
    split
    · rename_i p h1
      refine edit_stops hρ h (find_ptr h1) (by omega) ?_
      intro nd nd' hn hn'
      rw [Option.map_eq_some_iff] at hn'
      obtain ⟨x, hx, rfl⟩ := hn'
      obtain ⟨a1, a2⟩ := setHybrid_spec (shaped_of_live h.good (find_ptr h1) hn) i v x hx
      exact ⟨a1, fun c hc => Or.inl (a2 c hc)⟩
    · intro h; cases h
  | drop attr =>
    simp only [step]
    split
    · split_ifs <;> (intro h; cases h)
    · intro h; cases h
  | addDropped md =>
    simp only [step]
    simp only [added] at hroom hfu
    split
    · intro h; cases h
    · rename_i nd hnd
      obtain ⟨s1, s2, _⟩ := newNodeData_spec hnd
      have hs := addNew_stops (fuel := fuel) hρ h s1 s2 (by rw [maxId_eq] at hfu; omega) (by omega) (by omega)
      cases ha : addData reg ρ fuel { st with arena := st.arena ++ [nd] } st.arena.length with
      | ub => intro h; cases h
      | deep => exact absurd ha hs
      | ok st1 =>
        simp only [Out.bind]
        obtain ⟨b1, b2, b3, b4⟩ := addNew_ok h s1 s2 ha
        have hm : st.arena.length ∈ ptrs st1 := by rw [b2]; simp
        have hfu1 : st1.nodes.length < fuel := by
          have := congrArg List.length b2
          simp only [ptrs, List.length_map, List.length_cons] at this
          rw [maxId_eq] at hfu; omega
        refine edit_stops hρ b1 hm hfu1 ?_
        intro n n' hn hn'
        have hsh := shaped_of_live b1.good hm hn
        have hlen : 0 < (links n).length := by
          obtain ⟨_, _, m, hm, hl⟩ := newNodeData_spec hnd
          have hs := b4.node st.arena.length nd n (by simp) hn
          rw [NLess.llinks hs, hl]; exact hp m hm
        obtain ⟨n'', c0, c1, c2, c3, c4, c5⟩ := setLink0 hlen (hsh.few hr) st.dropped
        rw [c0] at hn'; cases hn'
        refine ⟨hsh.of_setLink c1 c2 c3 c4, fun c hc => ?_⟩
        rcases nlink_of_links c5 hc with h' | h'
        · exact Or.inl h'
        · have hcs := mem_ptrs.mpr (hd trivial c h')
          refine Or.inr ⟨by rw [b2]; exact List.mem_cons_of_mem _ hcs, fun hre => ?_⟩
          -- old nodes reach only old nodes
          have hold : ∀ q, Reach st1.arena c q → q ∈ ptrs st := by
            intro q hq
            induction hq with
            | refl => exact hcs
            | tail _ hlk ih =>
              rename_i b d _
              obtain ⟨x, hx, hx2⟩ := b4.link hlk
              rw [List.getElem?_append_left (h.good.lt ih)] at hx
              exact h.good.closed b ih d ⟨x, hx, hx2⟩
          exact absurd (h.good.lt (hold _ hre)) (by omega)
  | bench id =>
    simp only [step]
    split
    · rename_i p h1
      obtain ⟨A, hA⟩ := fixOne_ok (h.good.hasMeta (find_ptr h1))
      rw [hA]; intro h; cases h
    · intro h; cases h
  | clear => simp only [step]; intro h; cases h

/-- A new link that closes a cycle, if the tree of its end node is otherwise complete. -/
theorem link_repaired {reg : Reg} {ρ fuel} {st : Ed} (hρ : IsOrder ρ) (h : Inv reg st) {p : Nat} (hp : p ∈ ptrs st) (hfu : st.nodes.length < fuel) {f : NodeData → Option NodeData}
    (hf : ∀ nd nd', st.arena[p]? = some nd → f nd = some nd' → (Shaped reg nd' ∧ ∀ c, NLink nd' c → c ∈ ptrs st) ∧
      ∃ text A', serialise reg true (st.arena.set p nd') p = .text text A' ∧ text ≠ []) : editNode reg ρ fuel st p f ≠ .deep := by
  unfold editNode
  split
  · intro h; cases h
  · rename_i nd hnd
    split
    · intro h; cases h
    · rename_i nd' hnd'
      obtain ⟨⟨f1, f2⟩, text, A', f3, f4⟩ := hf nd nd' hnd hnd'
      have hg := h.good.set hp f1 f2
      obtain ⟨b, s, e, _, hb⟩ := fix_core (hg.hasMeta hp)
      have hbt : b = true := by
        cases b with
        | true => rfl
        | false =>
          unfold serialise at f3
          rw [e] at f3
          simp only [finishWith] at f3
          cases f3
          exact absurd rfl f4
      obtain ⟨_, hac, _⟩ := hb hbt
      have hfix : fixOne reg p (st.arena.set p nd') = .ok s.arena := by unfold fixOne; rw [e]
      have hless := fixOne_less hfix
      have hg' := hg.less hless
      have hnl : NoLoops (ptrs st) s.arena := noLoops_edit (h.good.lt hp) h.loops hless (hac p .refl)
      have := preview_stops_fix (order := (ρ st.nodes).map (·.1)) (L := ptrs st) (fun q hq => (mem_order hρ).mp hq) hfix hnl (by simpa [ptrs] using hfu) hp (hg'.safe hp)
      cases hv : preview reg ((ρ st.nodes).map (·.1)) fuel p (st.arena.set p nd') with
      | ub => intro h; cases h
      | deep => exact absurd hv this
      | ok A => intro h; cases h

/-! ## Edits change nothing else -/

theorem finish_arena {enc : List UInt8 → Option (List UInt8)} {r : SR} {text : List UInt8} {A : Arena} (h : finishWith enc r = .text text A) : ∃ b s, r = .done b s ∧ s.arena = A := by
  cases r with
  | ub => simp only [finishWith] at h; cases h
  | nofuel => simp only [finishWith] at h; cases h
  | done b s =>
    refine ⟨b, s, rfl, ?_⟩
    cases b with
    | false => simp only [finishWith] at h; exact (SerOut.text.inj h).2
    | true =>
      simp only [finishWith] at h
      cases he : enc s.ws.stream with
      | none => rw [he] at h; cases h
      | some t => rw [he] at h; exact (SerOut.text.inj h).2

/-- Serialising leaves a sound graph alone. -/
theorem fixOne_same {reg : Reg} (hreg : Registry.RegOK reg) {L : List Nat} {A : Arena} (hg : Good reg L A) (hn : NoLoops L A) (hfit : ∀ p ∈ L, SourcesFit reg A p) (hsz : A.length < 2 ^ 54)
    {p : Nat} (hp : p ∈ L) : fixOne reg p A = .ok A := by
  obtain ⟨text, t1, _⟩ := C10_fixup_harmless reg hreg A p (hg.hasMeta hp) hsz (fun q hq => hn q (hg.reach hp hq)) (hfit p hp)
  obtain ⟨b, s, e, ea⟩ := finish_arena t1
  unfold fixOne
  rw [e, ← ea]

theorem forEach_same {α : Type} {f : α → Arena → Out Arena} {A : Arena} : ∀ (l : List α), (∀ x ∈ l, f x A = .ok A ∨ f x A = .deep) → forEach f l A = .ok A ∨ forEach f l A = .deep := by
  intro l
  induction l with
  | nil => intro _; exact Or.inl rfl
  | cons x xs ih =>
    intro h
    rw [forEach]
    rcases h x (by simp) with e | e
    · rw [e]; exact ih fun y hy => h y (by simp [hy])
    · rw [e]; exact Or.inr rfl

theorem preview_same {reg : Reg} {order L : List Nat} {A : Arena} (hf : ∀ p ∈ L, fixOne reg p A = .ok A) (hL : ∀ q ∈ order, q ∈ L) (hlt : ∀ q ∈ order, q < A.length) :
    ∀ fuel p, p ∈ L → preview reg order fuel p A = .ok A ∨ preview reg order fuel p A = .deep := by
  intro fuel
  induction fuel with
  | zero => intro p _; exact Or.inr rfl
  | succ f ih =>
    intro p hp
    rw [preview, hf p hp]
    simp only [Out.bind]
    refine forEach_same _ fun q hq => ?_
    rw [List.getElem?_eq_getElem (hlt q hq)]
    simp only
    refine forEach_same _ fun l _ => ?_
    by_cases e : l = some p
    · rw [if_pos e]; exact ih q (hL q hq)
    · rw [if_neg e]; exact Or.inl rfl

/-- An edit that leaves the graph sound does exactly what it says. -/
theorem editNode_exact {reg : Reg} (hreg : Registry.RegOK reg) {ρ fuel} {st : Ed} {p : Nat} {f : NodeData → Option NodeData} (hρ : IsOrder ρ) (h : Inv reg st) (hp : p ∈ ptrs st) (hfu : st.nodes.length < fuel)
    {nd nd' : NodeData} (hn : st.arena[p]? = some nd) (hn' : f nd = some nd') (hs : Shaped reg nd') (hl : ∀ c, NLink nd' c → NLink nd c ∨ (c ∈ ptrs st ∧ ¬ Reach st.arena c p))
    (hfit : ∀ q ∈ ptrs st, SourcesFit reg (st.arena.set p nd') q) (hsz : st.arena.length < 2 ^ 54) :
    editNode reg ρ fuel st p f = .ok { st with arena := st.arena.set p nd' } := by
  have hstop := edit_stops (fuel := fuel) (f := f) hρ h hp hfu (fun a b ha hb => by rw [hn] at ha; cases ha; rw [hn'] at hb; cases hb; exact ⟨hs, hl⟩)
  have hg : Good reg (ptrs st) (st.arena.set p nd') := h.good.set hp hs (fun c hc => by
    rcases hl c hc with h' | h'
    · exact closed_nd h hp hn h'
    · exact h'.1)
  have hnl : NoLoops (ptrs st) (st.arena.set p nd') := noLoops_edit (h.good.lt hp) h.loops (Less.refl _) (fun hc => by
    obtain ⟨c, hc, hr⟩ := cycle_set (h.good.lt hp) hc
    rcases hl c hc with h' | h'
    · exact h.loops p hp (TransGen.head' ⟨nd, hn, h'⟩ hr)
    · exact h'.2 hr)
  unfold editNode at hstop ⊢
  rw [hn] at hstop ⊢
  simp only at hstop ⊢
  rw [hn'] at hstop ⊢
  simp only at hstop ⊢
  rcases preview_same (reg := reg) (order := (ρ st.nodes).map (·.1)) (L := ptrs st) (fun q hq => fixOne_same hreg hg hnl hfit (by simpa using hsz) hq)
    (fun q hq => (mem_order hρ).mp hq) (fun q hq => hg.lt ((mem_order hρ).mp hq)) fuel p hp with e | e
  · rw [e]; rfl
  · rw [e] at hstop; exact absurd rfl hstop

/-! ## More fuel changes nothing -/

theorem bind_mono {α β : Type} {x y : Out α} {f g : α → Out β} (h : x ≠ .deep → y = x) (hf : ∀ a, f a ≠ .deep → g a = f a) (hd : x.bind f ≠ .deep) : y.bind g = x.bind f := by
  cases x with
  | ub => rw [h (by intro h; cases h)]; rfl
  | deep => exact absurd rfl hd
  | ok a => rw [h (by intro h; cases h)]; exact hf a hd

theorem forEach_mono {α : Type} {f g : α → Arena → Out Arena} (h : ∀ x A, f x A ≠ .deep → g x A = f x A) : ∀ (l : List α) (A : Arena), forEach f l A ≠ .deep → forEach g l A = forEach f l A := by
  intro l
  induction l with
  | nil => intro A _; rfl
  | cons x xs ih =>
    intro A hd
    rw [forEach] at hd ⊢
    rw [forEach]
    exact bind_mono (h x A) (fun a ha => ih a ha) hd

theorem preview_mono {reg : Reg} {order : List Nat} : ∀ (f f' p : Nat) (A : Arena), f ≤ f' → preview reg order f p A ≠ .deep → preview reg order f' p A = preview reg order f p A := by
  intro f
  induction f with
  | zero => intro f' p A _ h; exact absurd rfl h
  | succ f ih =>
    intro f' p A hle hd
    cases f' with
    | zero => omega
    | succ f' =>
      rw [preview] at hd ⊢
      rw [preview]
      refine bind_mono (fun _ => rfl) (fun B hB => ?_) hd
      refine forEach_mono (fun q C hC => ?_) _ _ hB
      split at hC
      · rfl
      · refine forEach_mono (fun l D hD => ?_) _ _ hC
        by_cases e : l = some p
        · rw [if_pos e] at hD ⊢; rw [if_pos e]; exact ih f' q D (by omega) hD
        · rw [if_neg e, if_neg e]

theorem addData_mono {reg : Reg} {ρ} {f f' : Nat} (hle : f ≤ f') {st : Ed} {p : Nat} (h : addData reg ρ f st p ≠ .deep) : addData reg ρ f' st p = addData reg ρ f st p := by
  unfold addData at h ⊢
  cases hf : freeId (st.nodes.map (·.2)) f st.counter with
  | none => rw [hf] at h; exact absurd rfl h
  | some id =>
    rw [hf] at h
    simp only at h ⊢
    rw [freeId_mono _ _ _ _ _ hle hf]
    exact bind_mono (fun hd => preview_mono _ _ _ _ hle hd) (fun _ _ => rfl) h

theorem addAll_mono {reg : Reg} {ρ} {f f' : Nat} (hle : f ≤ f') : ∀ (ps : List Nat) (st : Ed), addAll reg ρ f ps st ≠ .deep → addAll reg ρ f' ps st = addAll reg ρ f ps st := by
  intro ps
  induction ps with
  | nil => intro st _; rfl
  | cons p ps ih =>
    intro st h
    rw [addAll] at h ⊢
    rw [addAll]
    exact bind_mono (fun hd => addData_mono hle hd) (fun a ha => ih a ha) h

theorem editNode_mono {reg : Reg} {ρ} {f f' : Nat} (hle : f ≤ f') {st : Ed} {p : Nat} {g : NodeData → Option NodeData} (h : editNode reg ρ f st p g ≠ .deep) :
    editNode reg ρ f' st p g = editNode reg ρ f st p g := by
  unfold editNode at h ⊢
  split
  · rfl
  · rename_i nd hn
    rw [hn] at h
    simp only at h ⊢
    split
    · rfl
    · rename_i nd' hn'
      rw [hn'] at h
      simp only at h
      exact bind_mono (fun hd => preview_mono _ _ _ _ hle hd) (fun _ _ => rfl) h

theorem step_mono {reg : Reg} {ρ} {f f' : Nat} (hle : f ≤ f') {st : Ed} {op : Op} (h : step reg ρ f st op ≠ .deep) : step reg ρ f' st op = step reg ρ f st op := by
  cases op with
  | add md =>
    simp only [step] at h ⊢
    split
    · rfl
    · rename_i nd hn; rw [hn] at h; exact addData_mono hle h
  | addEncoded text =>
    simp only [step] at h ⊢
    split
    · rfl
    · rfl
    · rfl
    · rename_i r nds hn; rw [hn] at h; exact addAll_mono hle _ _ h
  | link s e attr snap =>
    simp only [step] at h ⊢
    split
    · rename_i ps pe h1 h2
      rw [h1, h2] at h
      simp only at h
      split
      · rfl
      · rename_i l hl
        rw [hl] at h
        simp only at h
        by_cases hc : snap = false ∨ l = none
        · rw [if_pos hc] at h ⊢; rw [if_pos hc]; exact editNode_mono hle h
        · rw [if_neg hc, if_neg hc]
    · rfl
  | unlink attr =>
    simp only [step, unlink] at h ⊢
    refine bind_mono (fun hd => forEach_mono (fun n A hA => ?_) _ _ hd) (fun _ _ => rfl) h
    split at hA
    · rfl
    · rename_i nd hn
      split at hA
      · rfl
      · rename_i nd' hn'
        by_cases hc : startAttr n.2 ≤ attr ∧ attr < startAttr n.2 + (links nd).length
        · rw [if_pos hc] at hA ⊢; rw [if_pos hc]; exact preview_mono _ _ _ _ hle hA
        · rw [if_neg hc, if_neg hc]
  | delete id =>
    simp only [step] at h ⊢
    split
    · rename_i p hp
      rw [hp] at h
      simp only [deleteNode] at h ⊢
      refine bind_mono (fun hd => forEach_mono (fun n A hA => ?_) _ _ hd) (fun _ _ => rfl) h
      split at hA
      · rfl
      · rename_i nd hn
        split at hA
        · rfl
        · rename_i nd' hn'
          by_cases hc : some p ∈ links nd
          · rw [if_pos hc] at hA ⊢; rw [if_pos hc]; exact preview_mono _ _ _ _ hle hA
          · rw [if_neg hc, if_neg hc]
    · rfl
  | convert id md same =>
    simp only [step] at h ⊢
    split
    · rename_i p m h1 h2; rw [h1, h2] at h; exact editNode_mono hle h
    · rfl
  | setVar id i v =>
    simp only [step] at h ⊢
    split
    · rename_i p h1; rw [h1] at h; exact editNode_mono hle h
    · rfl
  | setHybrid id i v =>
    simp only [step] at h ⊢
    split
    · rename_i p h1; rw [h1] at h; exact editNode_mono hle h
    · rfl
  | drop attr => rfl
  | addDropped md =>
    simp only [step] at h ⊢
    split
    · rfl
    · rename_i nd hn
      rw [hn] at h
      exact bind_mono (fun hd => addData_mono hle hd) (fun a ha => editNode_mono hle ha) h
  | bench id => rfl
  | clear => rfl

end FastNoise.Editor
