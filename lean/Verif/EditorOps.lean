import Verif.EditorInv
/-! # The editor operations keep the graph sound -/
namespace FastNoise.Editor
open FastNoise.Ser FastNoise.Deser FastNoise.Stream FastNoise.Spec FastNoise.RT
open Relation

/-- No node type has more inputs than `GetNodeLink` can address. -/
def FewLinks (reg : Reg) : Prop := ∀ m ∈ reg, m.lookups.length + m.hybrids.length ≤ 16

theorem length_links (nd : NodeData) : (links nd).length = nd.lookups.length + nd.hybrids.length := by simp [links]

theorem Shaped.few {reg : Reg} (hr : FewLinks reg) {nd : NodeData} (h : Shaped reg nd) : (links nd).length ≤ 16 := by
  obtain ⟨id, m, _, h2, _, h4, h5⟩ := h
  rw [length_links, h4, h5]
  exact hr m (List.mem_of_getElem? h2)

theorem shaped_of_live {reg L A} (h : Good reg L A) {p : Nat} (hp : p ∈ L) {nd : NodeData} (hn : A[p]? = some nd) : Shaped reg nd := by
  obtain ⟨nd', id, m, a1, a2⟩ := h.live p hp
  rw [hn] at a1; cases a1
  exact ⟨id, m, a2⟩

theorem Shaped.nless {reg : Reg} {n n' : NodeData} (h : Shaped reg n) (hs : NLess n n') : Shaped reg n' := by
  obtain ⟨id, m, h1, h2, h3, h4, h5⟩ := h
  exact ⟨id, m, by rw [hs.md]; exact h1, h2, by rw [hs.vars]; exact h3, by rw [hs.llen]; exact h4, by rw [hs.hlen]; exact h5⟩

theorem NLess.nlink {n n' : NodeData} (hs : NLess n n') {c : Nat} (h : NLink n' c) : NLink n c := by
  rcases h with h | ⟨v, h⟩
  · exact Or.inl (hs.lookup_mem h)
  · exact Or.inr ⟨v, hs.hybrid_mem h⟩

/-! ## One link -/

/-- Writing a link: the slot is the `k`-th link, nothing else changes. -/
theorem setLink_spec {id : Nat} (hid : id ≤ maxId) {nd : NodeData} {k : Nat} (hk : k < (links nd).length) (h16 : (links nd).length ≤ 16) (v : Option Nat) :
    ∃ nd', setLink nd (startAttr id + k) v = some nd' ∧ nd'.md = nd.md ∧ nd'.vars = nd.vars ∧ nd'.lookups.length = nd.lookups.length ∧
      nd'.hybrids.map (·.2) = nd.hybrids.map (·.2) ∧ links nd' = (links nd).set k v := by
  rw [length_links] at hk h16
  unfold setLink
  rw [attr_low hid (by omega)]
  simp only
  by_cases hl : k < nd.lookups.length
  · rw [if_pos hl]
    exact ⟨_, rfl, rfl, rfl, by simp, rfl, by simp only [links]; rw [List.set_append_left _ _ hl]⟩
  · rw [if_neg hl, List.getElem?_eq_getElem (show k - nd.lookups.length < nd.hybrids.length by omega)]
    refine ⟨_, rfl, rfl, rfl, rfl, ?_, ?_⟩
    · simp only [List.map_set]
      apply List.ext_getElem?
      intro j
      rw [List.getElem?_set]
      split_ifs with e h1
      · subst e; simp at h1; simp [h1]
      · subst e; simp at h1; simp [h1]
      · rfl
    · simp only [links, List.map_set]
      rw [List.set_append_right _ _ (by omega)]

theorem getLink_spec {id : Nat} (hid : id ≤ maxId) {nd : NodeData} {k : Nat} (hk : k < (links nd).length) (h16 : (links nd).length ≤ 16) :
    getLink nd (startAttr id + k) = (links nd)[k]? := by
  rw [length_links] at hk h16
  unfold getLink
  rw [attr_low hid (by omega)]
  simp only [links]
  by_cases hl : k < nd.lookups.length
  · rw [if_pos hl, List.getElem?_append_left hl]
  · rw [if_neg hl, List.getElem?_append_right (by omega), List.getElem?_map]

theorem hlen_of_map {a b : NodeData} (h : a.hybrids.map (·.2) = b.hybrids.map (·.2)) : a.hybrids.length = b.hybrids.length := by
  have := congrArg List.length h
  simpa using this

theorem Shaped.of_setLink {reg : Reg} {nd nd' : NodeData} (h : Shaped reg nd) (h1 : nd'.md = nd.md) (h2 : nd'.vars = nd.vars) (h3 : nd'.lookups.length = nd.lookups.length)
    (h4 : nd'.hybrids.map (·.2) = nd.hybrids.map (·.2)) : Shaped reg nd' := by
  obtain ⟨id, m, a1, a2, a3, a4, a5⟩ := h
  exact ⟨id, m, by rw [h1]; exact a1, a2, by rw [h2]; exact a3, by rw [h3]; exact a4, by rw [hlen_of_map h4]; exact a5⟩

/-- Nulling a link is a removal. -/
theorem setLink_nless {id : Nat} (hid : id ≤ maxId) {nd nd' : NodeData} {k : Nat} (hk : k < (links nd).length) (h16 : (links nd).length ≤ 16)
    (h : setLink nd (startAttr id + k) none = some nd') : NLess nd nd' := by
  rw [length_links] at hk h16
  unfold setLink at h
  rw [attr_low hid (by omega)] at h
  simp only at h
  split_ifs at h with hl
  · cases h; exact nless_setLookup nd k
  · split at h
    · rename_i x hx; cases h; exact nless_setHybrid nd _ x hx
    · cases h

theorem NLess.llinks {n n' : NodeData} (h : NLess n n') : (links n').length = (links n).length := by rw [length_links, length_links, h.llen, h.hlen]

theorem NLess.links_get {n n' : NodeData} (h : NLess n n') {i : Nat} {a b : Option Nat} (ha : (links n)[i]? = some a) (hb : (links n')[i]? = some b) : b = a ∨ b = none := by
  unfold links at ha hb
  by_cases hl : i < n.lookups.length
  · rw [List.getElem?_append_left hl] at ha
    rw [List.getElem?_append_left (by rw [h.llen]; exact hl)] at hb
    exact (h.lk i a b ha hb).imp id (fun x => x.1)
  · rw [List.getElem?_append_right (by omega), List.getElem?_map, Option.map_eq_some_iff] at ha
    rw [List.getElem?_append_right (by rw [h.llen]; omega), List.getElem?_map, Option.map_eq_some_iff, h.llen] at hb
    obtain ⟨x, hx, rfl⟩ := ha
    obtain ⟨y, hy, rfl⟩ := hb
    exact (h.hy _ x y hx hy).2.imp id (fun x => x.1)

/-! ## Removing links -/

/-- `dropLinks` from position `k`. -/
theorem dropLinks_spec {id : Nat} (hid : id ≤ maxId) (x : Nat) : ∀ (ls : List (Option Nat)) (k : Nat) (nd : NodeData), (links nd).length ≤ 16 → k + ls.length = (links nd).length →
    (∀ j l b, ls[j]? = some l → (links nd)[k + j]? = some b → b = l ∨ b = none) →
    ∃ nd', dropLinks x ls (startAttr id + k) nd = some nd' ∧ NLess nd nd' ∧ ∀ j, k ≤ j → (links nd')[j]? ≠ some (some x) := by
  intro ls
  induction ls with
  | nil =>
    intro k nd _ hk _
    refine ⟨nd, rfl, NodeSub.refl _ _ _, fun j hj h => ?_⟩
    have := (List.getElem?_eq_some_iff.mp h).1
    simp at hk; omega
  | cons l ls ih =>
    intro k nd h16 hk hm
    simp only [List.length_cons] at hk
    rw [dropLinks]
    have hklt : k < (links nd).length := by omega
    split_ifs with hl
    · obtain ⟨nd1, s1, -, -, -, -, s6⟩ := setLink_spec hid hklt h16 none
      have hs := setLink_nless hid hklt h16 s1
      rw [s1]
      simp only [Option.bind_some]
      obtain ⟨nd', d1, d2, d3⟩ := ih (k + 1) nd1 (by rw [hs.llinks]; exact h16) (by rw [hs.llinks]; omega) (by
        intro j l b hj hb
        rw [s6, List.getElem?_set_ne (by omega)] at hb
        exact hm (j + 1) l b (by simpa using hj) (by rw [← hb]; congr 1; omega))
      refine ⟨nd', by rw [show startAttr id + k + 1 = startAttr id + (k + 1) by omega]; exact d1, hs.trans d2, ?_⟩
      intro j hj
      by_cases e : j = k
      · subst e
        intro hx
        have hc : (links nd1)[j]? = some none := by rw [s6]; simp [hklt]
        rcases d2.links_get hc hx with h | h <;> cases h
      · exact d3 j (by omega)
    · obtain ⟨nd', d1, d2, d3⟩ := ih (k + 1) nd h16 (by omega) (by
        intro j l b hj hb
        exact hm (j + 1) l b (by simpa using hj) (by rw [← hb]; congr 1; omega))
      refine ⟨nd', by rw [show startAttr id + k + 1 = startAttr id + (k + 1) by omega]; exact d1, d2, ?_⟩
      intro j hj
      by_cases e : j = k
      · subst e
        intro hx
        have hb := hm 0 l _ (by simp) (List.getElem?_eq_getElem hklt)
        rcases d2.links_get (List.getElem?_eq_getElem hklt) hx with h | h
        · rcases hb with hb | hb
          · rw [hb] at h; exact hl h.symm
          · rw [hb] at h; cases h
        · cases h
      · exact d3 j (by omega)

theorem dropLinks_all {reg : Reg} (hr : FewLinks reg) {id : Nat} (hid : id ≤ maxId) (x : Nat) {nd : NodeData} (hs : Shaped reg nd) :
    ∃ nd', dropLinks x (links nd) (startAttr id) nd = some nd' ∧ NLess nd nd' ∧ ¬ NLink nd' x := by
  obtain ⟨nd', h1, h2, h3⟩ := dropLinks_spec hid x (links nd) 0 nd (hs.few hr) (by omega) (by
    intro j l b hj hb
    rw [Nat.zero_add, hj] at hb; cases hb; exact Or.inl rfl)
  refine ⟨nd', h1, h2, fun h => ?_⟩
  obtain ⟨j, hj⟩ := List.getElem?_of_mem (mem_links.mpr h)
  exact h3 j (by omega) hj

theorem dropAttr_spec {id : Nat} (hid : id ≤ maxId) (del : Nat) : ∀ (ls : List (Option Nat)) (k : Nat) (nd : NodeData), (links nd).length ≤ 16 → k + ls.length = (links nd).length →
    ∃ nd', dropAttr del ls (startAttr id + k) nd = some nd' ∧ NLess nd nd' ∧ nd'.hybrids.map (·.2) = nd.hybrids.map (·.2) ∧
      links nd' = if startAttr id + k ≤ del ∧ del < startAttr id + (links nd).length then (links nd).set (del - startAttr id) none else links nd := by
  intro ls
  induction ls with
  | nil =>
    intro k nd _ hk
    refine ⟨nd, rfl, NodeSub.refl _ _ _, rfl, ?_⟩
    simp at hk
    rw [if_neg (by omega)]
  | cons l ls ih =>
    intro k nd h16 hk
    simp only [List.length_cons] at hk
    rw [dropAttr]
    have hklt : k < (links nd).length := by omega
    by_cases hl : startAttr id + k = del
    · obtain ⟨nd1, s1, -, -, -, s5, s6⟩ := setLink_spec hid hklt h16 none
      have hs := setLink_nless hid hklt h16 s1
      rw [if_pos hl, s1]
      simp only [Option.bind_some]
      obtain ⟨nd', d1, d2, d4, d3⟩ := ih (k + 1) nd1 (by rw [hs.llinks]; exact h16) (by rw [hs.llinks]; omega)
      refine ⟨nd', by rw [show startAttr id + k + 1 = startAttr id + (k + 1) by omega]; exact d1, hs.trans d2, d4.trans s5, ?_⟩
      rw [if_pos (by omega), d3, if_neg (by omega), s6]
      congr 1; omega
    · obtain ⟨nd', d1, d2, d4, d3⟩ := ih (k + 1) nd h16 (by omega)
      rw [if_neg hl]
      refine ⟨nd', by rw [show startAttr id + k + 1 = startAttr id + (k + 1) by omega]; exact d1, d2, d4, ?_⟩
      rw [d3]
      by_cases hc : startAttr id + (k + 1) ≤ del ∧ del < startAttr id + (links nd).length
      · rw [if_pos hc, if_pos (by omega)]
      · rw [if_neg hc, if_neg (by omega)]

/-! ## Editing one node -/

theorem editNode_ok {reg ρ fuel} {st st' : Ed} {p : Nat} {f : NodeData → Option NodeData} (hρ : IsOrder ρ) (h : Inv reg st) (hp : p ∈ ptrs st)
    (hf : ∀ nd nd', st.arena[p]? = some nd → f nd = some nd' → Shaped reg nd' ∧ ∀ c, NLink nd' c → c ∈ ptrs st)
    (e : editNode reg ρ fuel st p f = .ok st') : Inv reg st' ∧ st'.nodes = st.nodes ∧ st'.dropped = st.dropped := by
  unfold editNode at e
  split at e
  · cases e
  · rename_i nd hnd
    split at e
    · cases e
    · rename_i nd' hnd'
      obtain ⟨f1, f2⟩ := hf nd nd' hnd hnd'
      cases hv : preview reg ((ρ st.nodes).map (·.1)) fuel p (st.arena.set p nd') with
      | ub => rw [hv] at e; cases e
      | deep => rw [hv] at e; cases e
      | ok A =>
        rw [hv] at e
        simp only [Out.bind] at e
        cases e
        have hl := preview_less _ _ _ _ hv
        have hg : Good reg (ptrs st) A := (h.good.set hp f1 f2).less hl
        have hnc := preview_no_cycle hv (fun r hr => (mem_order hρ).mpr (hg.reach hp hr))
        exact ⟨⟨hg, noLoops_edit (h.good.lt hp) h.loops hl hnc, h.sub, h.pnd, h.idnd, h.idr, h.ctr⟩, rfl, rfl⟩

theorem editNode_safe {reg ρ fuel} {st : Ed} {p : Nat} {f : NodeData → Option NodeData} (hρ : IsOrder ρ) (h : Inv reg st) (hp : p ∈ ptrs st)
    (hf : ∀ nd, st.arena[p]? = some nd → ∃ nd', f nd = some nd' ∧ Shaped reg nd' ∧ ∀ c, NLink nd' c → c ∈ ptrs st) : editNode reg ρ fuel st p f ≠ .ub := by
  unfold editNode
  rw [List.getElem?_eq_getElem (h.good.lt hp)]
  simp only
  obtain ⟨nd', f0, f1, f2⟩ := hf _ (List.getElem?_eq_getElem (h.good.lt hp))
  rw [f0]
  simp only
  have hg := h.good.set hp f1 f2
  have := preview_safe (order := (ρ st.nodes).map (·.1)) fuel p _ (hg.safe hp) (fun q hq => hg.lt ((mem_order hρ).mp hq))
  cases hv : preview reg ((ρ st.nodes).map (·.1)) fuel p (st.arena.set p nd') with
  | ub => exact absurd hv this
  | deep => intro h; cases h
  | ok A => intro h; cases h

/-- Without a new cycle the previews terminate. -/
theorem editNode_stops {reg ρ fuel} {st : Ed} {p : Nat} {f : NodeData → Option NodeData} (hρ : IsOrder ρ) (h : Inv reg st) (hp : p ∈ ptrs st) (hfu : st.nodes.length < fuel)
    (hf : ∀ nd nd', st.arena[p]? = some nd → f nd = some nd' → (Shaped reg nd' ∧ ∀ c, NLink nd' c → c ∈ ptrs st) ∧ ¬ TransGen (LinkND (st.arena.set p nd')) p p) :
    editNode reg ρ fuel st p f ≠ .deep := by
  unfold editNode
  split
  · intro h; cases h
  · rename_i nd hnd
    split
    · intro h; cases h
    · rename_i nd' hnd'
      obtain ⟨⟨f1, f2⟩, f3⟩ := hf nd nd' hnd hnd'
      have hg := h.good.set hp f1 f2
      have hnl : NoLoops (ptrs st) (st.arena.set p nd') := noLoops_edit (h.good.lt hp) h.loops (Less.refl _) f3
      have := preview_stops (reg := reg) (order := (ρ st.nodes).map (·.1)) (L := ptrs st) (fun q hq => (mem_order hρ).mp hq) hnl fuel p _ [] (by simpa [ptrs] using hfu)
        List.nodup_nil (by simp) hp (by simp) (by simp) (Less.refl _) (hg.safe hp)
      cases hv : preview reg ((ρ st.nodes).map (·.1)) fuel p (st.arena.set p nd') with
      | ub => intro h; cases h
      | deep => exact absurd hv this
      | ok A => intro h; cases h

/-! ## Deleting a link -/

theorem ptr_id {reg : Reg} {st : Ed} (h : Inv reg st) {n : Nat × Nat} (hn : n ∈ st.nodes) : n.1 ∈ ptrs st ∧ n.2 ≤ maxId :=
  ⟨List.mem_map.mpr ⟨n, hn, rfl⟩, (h.idr n.2 (List.mem_map.mpr ⟨n, hn, rfl⟩)).2⟩

theorem setLink_none_nless {nd nd' : NodeData} {attr : Nat} (h : setLink nd attr none = some nd') : NLess nd nd' := by
  unfold setLink at h
  simp only at h
  split_ifs at h with hl
  · cases h; exact nless_setLookup nd _
  · split at h
    · rename_i x hx; cases h; exact nless_setHybrid nd _ x hx
    · cases h

theorem dropAttr_nless {del : Nat} : ∀ (ls : List (Option Nat)) (attr : Nat) (nd nd' : NodeData), dropAttr del ls attr nd = some nd' → NLess nd nd' := by
  intro ls
  induction ls with
  | nil => intro attr nd nd' h; simp only [dropAttr] at h; cases h; exact NodeSub.refl _ _ _
  | cons l ls ih =>
    intro attr nd nd' h
    rw [dropAttr] at h
    split_ifs at h
    · cases hs : setLink nd attr none with
      | none => rw [hs] at h; cases h
      | some nd1 => rw [hs] at h; exact (setLink_none_nless hs).trans (ih _ _ _ h)
    · exact ih _ _ _ h

theorem dropLinks_nless {x : Nat} : ∀ (ls : List (Option Nat)) (attr : Nat) (nd nd' : NodeData), dropLinks x ls attr nd = some nd' → NLess nd nd' := by
  intro ls
  induction ls with
  | nil => intro attr nd nd' h; simp only [dropLinks] at h; cases h; exact NodeSub.refl _ _ _
  | cons l ls ih =>
    intro attr nd nd' h
    rw [dropLinks] at h
    split_ifs at h
    · cases hs : setLink nd attr none with
      | none => rw [hs] at h; cases h
      | some nd1 => rw [hs] at h; exact (setLink_none_nless hs).trans (ih _ _ _ h)
    · exact ih _ _ _ h

/-- The body of the loop of `unlink`. -/
def unlinkBody (reg : Reg) (order : List Nat) (fuel del : Nat) (n : Nat × Nat) (A : Arena) : Out Arena :=
  match A[n.1]? with
  | none => .ub
  | some nd =>
    match dropAttr del (links nd) (startAttr n.2) nd with
    | none => .ub
    | some nd' =>
      if startAttr n.2 ≤ del ∧ del < startAttr n.2 + (links nd).length then preview reg order fuel n.1 (A.set n.1 nd') else .ok A

theorem unlink_eq {reg ρ fuel st del} : unlink reg ρ fuel st del =
    (forEach (unlinkBody reg ((ρ st.nodes).map (·.1)) fuel del) (ρ st.nodes) st.arena).bind fun A => .ok { st with arena := A } := rfl

theorem unlinkBody_less {reg order fuel del} {n : Nat × Nat} {A A' : Arena} (h : unlinkBody reg order fuel del n A = .ok A') : Less A A' := by
  unfold unlinkBody at h
  split at h
  · cases h
  · rename_i nd hnd
    split at h
    · cases h
    · rename_i nd' hnd'
      split_ifs at h
      · exact (Less.set hnd (dropAttr_nless _ _ _ _ hnd')).trans (preview_less _ _ _ _ h)
      · cases h; exact Less.refl _

theorem pre_less {reg L} {st : Ed} {A : Arena} (h : Pre reg L st) (hl : Less st.arena A) : Pre reg L { st with arena := A } :=
  ⟨h.good.less hl, h.loops.less hl, h.sub, h.pnd, h.idnd, h.idr, h.ctr⟩

theorem unlink_ok {reg ρ fuel} {st st' : Ed} (h : Inv reg st) {del : Nat} (e : unlink reg ρ fuel st del = .ok st') :
    Inv reg st' ∧ st'.nodes = st.nodes ∧ st'.dropped = st.dropped ∧ Less st.arena st'.arena := by
  rw [unlink_eq] at e
  cases hv : forEach (unlinkBody reg ((ρ st.nodes).map (·.1)) fuel del) (ρ st.nodes) st.arena with
  | ub => rw [hv] at e; cases e
  | deep => rw [hv] at e; cases e
  | ok A =>
    rw [hv] at e
    simp only [Out.bind] at e
    cases e
    have hl := forEach_less (fun n _ A A' h => unlinkBody_less h) _ _ hv
    exact ⟨pre_less h hl, rfl, rfl, hl⟩

theorem unlinkBody_safe {reg ρ fuel del} {st : Ed} (hr : FewLinks reg) (hρ : IsOrder ρ) (h : Inv reg st) (hfu : st.nodes.length < fuel) {n : Nat × Nat} (hn : n ∈ ρ st.nodes) {A : Arena} (hA : Less st.arena A) :
    unlinkBody reg ((ρ st.nodes).map (·.1)) fuel del n A ≠ .ub ∧ unlinkBody reg ((ρ st.nodes).map (·.1)) fuel del n A ≠ .deep := by
  obtain ⟨h1, h2⟩ := ptr_id h ((hρ _).mem_iff.mp hn)
  have hg := h.good.less hA
  have hlt0 : n.1 < A.length := hg.lt h1
  have hnd := List.getElem?_eq_getElem hlt0
  obtain ⟨nd', d1, d2, _⟩ := dropAttr_spec h2 del (links A[n.1]) 0 A[n.1] ((shaped_of_live hg h1 hnd).few hr) (by omega)
  unfold unlinkBody
  rw [hnd]
  simp only
  rw [Nat.add_zero] at d1
  rw [d1]
  simp only
  have hl := Less.set hnd d2
  split_ifs
  · constructor
    · exact preview_safe fuel n.1 _ ((hg.less hl).safe h1) (fun q hq => (hg.less hl).lt ((mem_order hρ).mp hq))
    · exact preview_stops (L := ptrs st) (fun q hq => (mem_order hρ).mp hq) (h.loops.less (hA.trans hl)) fuel n.1 _ [] (by simpa [ptrs] using hfu)
        List.nodup_nil (by simp) h1 (by simp) (by simp) (Less.refl _) ((hg.less hl).safe h1)
  · exact ⟨(by intro h; cases h), (by intro h; cases h)⟩

theorem unlink_safe {reg ρ fuel del} {st : Ed} (hr : FewLinks reg) (hρ : IsOrder ρ) (h : Inv reg st) (hfu : st.nodes.length < fuel) :
    ∃ st', unlink reg ρ fuel st del = .ok st' := by
  rw [unlink_eq]
  have a1 := forEach_safe (f := unlinkBody reg ((ρ st.nodes).map (·.1)) fuel del) (P := fun A => Less st.arena A) (l := ρ st.nodes) .ub (by intro A h; cases h)
    (fun n hn A hA => ⟨(unlinkBody_safe hr hρ h hfu hn hA).1, fun A' hA' => hA.trans (unlinkBody_less hA')⟩) st.arena (Less.refl _)
  have a2 := forEach_safe (f := unlinkBody reg ((ρ st.nodes).map (·.1)) fuel del) (P := fun A => Less st.arena A) (l := ρ st.nodes) .deep (by intro A h; cases h)
    (fun n hn A hA => ⟨(unlinkBody_safe hr hρ h hfu hn hA).2, fun A' hA' => hA.trans (unlinkBody_less hA')⟩) st.arena (Less.refl _)
  cases hv : forEach (unlinkBody reg ((ρ st.nodes).map (·.1)) fuel del) (ρ st.nodes) st.arena with
  | ub => exact absurd hv a1
  | deep => exact absurd hv a2
  | ok A => exact ⟨_, rfl⟩

/-- The deleted link is gone. -/
theorem unlink_gone {reg ρ fuel} {st st' : Ed} (hr : FewLinks reg) (hρ : IsOrder ρ) (h : Inv reg st) {p id k : Nat} (hp : (p, id) ∈ st.nodes)
    (e : unlink reg ρ fuel st (startAttr id + k) = .ok st') : ∀ nd', st'.arena[p]? = some nd' → ∀ l, (links nd')[k]? = some l → l = none := by
  rw [unlink_eq] at e
  cases hv : forEach (unlinkBody reg ((ρ st.nodes).map (·.1)) fuel (startAttr id + k)) (ρ st.nodes) st.arena with
  | ub => rw [hv] at e; cases e
  | deep => rw [hv] at e; cases e
  | ok A =>
    rw [hv] at e
    simp only [Out.bind] at e
    cases e
    intro nd' hnd' l hl
    obtain ⟨B, B', b1, b2, b3⟩ := forEach_mem (fun n _ A A' h => unlinkBody_less h) _ _ hv (p, id) ((hρ _).mem_iff.mpr hp)
    obtain ⟨h1, h2⟩ := ptr_id h hp
    have hg := h.good.less b1
    have hlt0 : p < B.length := hg.lt h1
    have hnd := List.getElem?_eq_getElem hlt0
    obtain ⟨nd1, d1, d2, _, d4⟩ := dropAttr_spec h2 (startAttr id + k) (links B[p]) 0 B[p] ((shaped_of_live hg h1 hnd).few hr) (by omega)
    unfold unlinkBody at b2
    rw [hnd] at b2
    simp only at b2
    rw [Nat.add_zero] at d1 d4
    rw [d1] at b2
    simp only at b2
    have hBA : Less B A := by
      have : unlinkBody reg ((ρ st.nodes).map (·.1)) fuel (startAttr id + k) (p, id) B = .ok B' := by
        unfold unlinkBody; rw [hnd]; simp only; rw [d1]; exact b2
      exact (unlinkBody_less this).trans b3
    have hlen : k < (links B[p]).length := by
      have hs := hBA.node p _ _ hnd hnd'
      rw [← NLess.llinks hs]; exact (List.getElem?_eq_some_iff.mp hl).1
    rw [if_pos (show startAttr (p, id).2 ≤ startAttr id + k ∧ startAttr id + k < startAttr (p, id).2 + (links B[p]).length from ⟨Nat.le_add_right _ _, Nat.add_lt_add_left hlen _⟩)] at b2
    simp only at d4
    rw [if_pos (by omega), show startAttr id + k - startAttr id = k by omega] at d4
    have hl2 : Less (B.set p nd1) A := (preview_less _ _ _ _ b2).trans b3
    have hs := hl2.node p nd1 nd' (by simp [hg.lt h1]) hnd'
    have : (links nd1)[k]? = some none := by rw [d4]; simp [hlen]
    rcases NLess.links_get hs this hl with h | h <;> exact h

/-! ## Deleting a node -/

/-- The body of the loop of `deleteNode`. -/
def deleteBody (reg : Reg) (order : List Nat) (fuel x : Nat) (n : Nat × Nat) (A : Arena) : Out Arena :=
  match A[n.1]? with
  | none => .ub
  | some nd =>
    match dropLinks x (links nd) (startAttr n.2) nd with
    | none => .ub
    | some nd' => if some x ∈ links nd then preview reg order fuel n.1 (A.set n.1 nd') else .ok A

theorem delete_eq {reg ρ fuel st x} : deleteNode reg ρ fuel st x =
    (forEach (deleteBody reg ((ρ (st.nodes.filter fun n => n.1 ≠ x)).map (·.1)) fuel x) (ρ (st.nodes.filter fun n => n.1 ≠ x)) (kill st.arena x)).bind
      fun A => .ok { st with arena := A, nodes := st.nodes.filter fun n => n.1 ≠ x } := rfl

theorem deleteBody_less {reg order fuel x} {n : Nat × Nat} {A A' : Arena} (h : deleteBody reg order fuel x n A = .ok A') : Less A A' := by
  unfold deleteBody at h
  split at h
  · cases h
  · rename_i nd hnd
    split at h
    · cases h
    · rename_i nd' hnd'
      split_ifs at h
      · exact (Less.set hnd (dropLinks_nless _ _ _ _ hnd')).trans (preview_less _ _ _ _ h)
      · cases h; exact Less.refl _

theorem link_kill {A : Arena} {x : Nat} (hx : x < A.length) {q c : Nat} : LinkND (kill A x) q c ↔ q ≠ x ∧ LinkND A q c := by
  unfold kill
  rw [link_set hx]
  simp [NLink]

/-- The state after `mNodes.erase`, before the loop: everything but the links to `x` is sound. -/
theorem filter_ptrs {st : Ed} {x p : Nat} : p ∈ (st.nodes.filter fun n => n.1 ≠ x).map (·.1) ↔ p ∈ ptrs st ∧ p ≠ x := by
  simp only [ptrs, List.mem_map, List.mem_filter, decide_eq_true_eq]
  constructor
  · rintro ⟨a, ⟨h1, h2⟩, rfl⟩; exact ⟨⟨a, h1, rfl⟩, h2⟩
  · rintro ⟨⟨a, h1, rfl⟩, h2⟩; exact ⟨a, ⟨h1, h2⟩, rfl⟩

/-- A completed deletion leaves no link to the deleted node. -/
theorem delete_ok {reg ρ fuel} {st st' : Ed} (hr : FewLinks reg) (hρ : IsOrder ρ) (h : Inv reg st) {x : Nat} (hx : x ∈ ptrs st) (e : deleteNode reg ρ fuel st x = .ok st') :
    Inv reg st' ∧ st'.nodes = st.nodes.filter (fun n => n.1 ≠ x) ∧ st'.dropped = st.dropped := by
  rw [delete_eq] at e
  cases hv : forEach (deleteBody reg ((ρ (st.nodes.filter fun n => n.1 ≠ x)).map (·.1)) fuel x) (ρ (st.nodes.filter fun n => n.1 ≠ x)) (kill st.arena x) with
  | ub => rw [hv] at e; cases e
  | deep => rw [hv] at e; cases e
  | ok A =>
    rw [hv] at e
    simp only [Out.bind] at e
    cases e
    have hxl := h.good.lt hx
    have hl := forEach_less (fun n _ A A' h => deleteBody_less h) _ _ hv
    have hlink : ∀ q c, LinkND A q c → q ≠ x ∧ LinkND st.arena q c := fun q c hc => (link_kill hxl).mp (hl.link hc)
    -- no link to x
    have hnox : ∀ p, p ∈ ptrs st → p ≠ x → ¬ LinkND A p x := by
      intro p hp hpx hc
      obtain ⟨n, hn, rfl⟩ := List.mem_map.mp hp
      have hnf : n ∈ ρ (st.nodes.filter fun n => n.1 ≠ x) := (hρ _).mem_iff.mpr (List.mem_filter.mpr ⟨hn, by simpa using hpx⟩)
      obtain ⟨B, B', b1, b2, b3⟩ := forEach_mem (fun n _ A A' h => deleteBody_less h) _ _ hv n hnf
      have hlt : n.1 < B.length := by rw [b1.len]; unfold kill; rw [List.length_set]; exact h.good.lt hp
      have hnd := List.getElem?_eq_getElem hlt
      have hBA := (deleteBody_less b2).trans b3
      unfold deleteBody at b2
      rw [hnd] at b2
      simp only at b2
      split at b2
      · cases b2
      · rename_i nd' hnd'
        have hm : some x ∈ links B[n.1] := mem_links.mpr ((linkND_iff hnd).mp (hBA.link hc))
        rw [if_pos hm] at b2
        -- the node was well formed
        have hsh : Shaped reg B[n.1] := by
          obtain ⟨nd0, id, m, a1, a2⟩ := h.good.live n.1 hp
          have hk : (kill st.arena x)[n.1]? = some nd0 := by unfold kill; rw [List.getElem?_set_ne (Ne.symm hpx)]; exact a1
          exact Shaped.nless ⟨id, m, a2⟩ (b1.node n.1 nd0 _ hk hnd)
        obtain ⟨nd'', c1, c2, c3⟩ := dropLinks_all hr (ptr_id h hn).2 x hsh
        rw [hnd'] at c1; cases c1
        have hl2 : Less (B.set n.1 nd') A := (preview_less _ _ _ _ b2).trans b3
        rcases (link_set hlt).mp (hl2.link hc) with ⟨_, h1⟩ | ⟨h1, _⟩
        · exact c3 h1
        · exact h1 rfl
    refine ⟨⟨⟨?_, ?_, ?_⟩, ?_, fun p hp => hp, ?_, ?_, ?_, h.ctr⟩, rfl, rfl⟩
    · intro p hp
      obtain ⟨hp1, hp2⟩ := filter_ptrs.mp hp
      obtain ⟨nd0, id, m, a1, a2⟩ := h.good.live p hp1
      have hk : (kill st.arena x)[p]? = some nd0 := by unfold kill; rw [List.getElem?_set_ne (Ne.symm hp2)]; exact a1
      obtain ⟨nd, hn, hs⟩ := hl.get hk
      have := Shaped.nless ⟨id, m, a2⟩ hs
      obtain ⟨id, m, a2⟩ := this
      exact ⟨nd, id, m, hn, a2⟩
    · intro p hp c hc
      obtain ⟨hp1, hp2⟩ := filter_ptrs.mp hp
      have := hlink p c hc
      refine filter_ptrs.mpr ⟨h.good.closed p hp1 c this.2, ?_⟩
      rintro rfl
      exact hnox p hp1 hp2 hc
    · intro p hp c hc
      have := hlink p c hc
      by_cases hp1 : p ∈ ptrs st
      · exact hp (filter_ptrs.mpr ⟨hp1, this.1⟩)
      · exact h.good.quiet p hp1 c this.2
    · intro q hq hc
      exact h.loops q (filter_ptrs.mp hq).1 (TransGen.mono (fun a b hab => (hlink a b hab).2) _ _ hc)
    · exact h.pnd.sublist (List.filter_sublist.map _)
    · exact h.idnd.sublist (List.filter_sublist.map _)
    · intro i hi
      exact h.idr i ((List.filter_sublist.map (fun n : Nat × Nat => n.2)).subset hi)

/-- No node leads to two different users of `x`. -/
def Unshared (A : Arena) (x : Nat) : Prop := ∀ n m d, LinkND A n x → LinkND A m x → Reach A d n → Reach A d m → n = m

theorem deleteBody_safe {reg ρ fuel} {st : Ed} (hr : FewLinks reg) (hρ : IsOrder ρ) (h : Inv reg st) (hfu : st.nodes.length < fuel) {x : Nat} (hx : x ∈ ptrs st)
    (hu : Unshared st.arena x) {n : Nat × Nat} (hn : n ∈ ρ (st.nodes.filter fun n => n.1 ≠ x)) {A : Arena} (hA : Less (kill st.arena x) A) :
    deleteBody reg ((ρ (st.nodes.filter fun n => n.1 ≠ x)).map (·.1)) fuel x n A ≠ .ub ∧
    deleteBody reg ((ρ (st.nodes.filter fun n => n.1 ≠ x)).map (·.1)) fuel x n A ≠ .deep := by
  have hn' := List.mem_filter.mp ((hρ _).mem_iff.mp hn)
  obtain ⟨h1, h2⟩ := ptr_id h hn'.1
  have hnx : n.1 ≠ x := by simpa using hn'.2
  have hxl := h.good.lt hx
  have hlen : ∀ q, q < st.arena.length → q < A.length := fun q hq => by rw [hA.len]; unfold kill; rw [List.length_set]; exact hq
  have hlt0 : n.1 < A.length := hlen _ (h.good.lt h1)
  have hnd := List.getElem?_eq_getElem hlt0
  have hlive : ∀ q, q ∈ ptrs st → q ≠ x → ∀ B, Less (kill st.arena x) B → ∃ nd id m, B[q]? = some nd ∧ nd.md = some id ∧ reg[id]? = some m ∧ Shaped reg nd := by
    intro q hq hqx B hB
    obtain ⟨nd0, id, m, a1, a2⟩ := h.good.live q hq
    have hk : (kill st.arena x)[q]? = some nd0 := by unfold kill; rw [List.getElem?_set_ne (Ne.symm hqx)]; exact a1
    obtain ⟨nd, hn, hs⟩ := hB.get hk
    exact ⟨nd, id, m, hn, by rw [hs.md]; exact a2.1, a2.2.1, Shaped.nless ⟨id, m, a2⟩ hs⟩
  have hsh : Shaped reg A[n.1] := by
    obtain ⟨nd, id, m, a1, _, _, a4⟩ := hlive n.1 h1 hnx A hA
    rw [hnd] at a1; cases a1; exact a4
  obtain ⟨nd', d1, d2, d3⟩ := dropLinks_all hr h2 x hsh
  unfold deleteBody
  rw [hnd]
  simp only
  rw [d1]
  simp only
  split_ifs with hm
  · have hset : Less A (A.set n.1 nd') := Less.set hnd d2
    have hAll := hA.trans hset
    have hlk : ∀ q c, LinkND (A.set n.1 nd') q c → q ≠ x ∧ LinkND st.arena q c := fun q c hc => (link_kill hxl).mp (hAll.link hc)
    have hrk : ∀ q c, Reach (A.set n.1 nd') q c → Reach st.arena q c := fun q c hc => ReflTransGen.mono (fun a b hab => (hlk a b hab).2) _ _ hc
    have huser : LinkND st.arena n.1 x := ((link_kill hxl).mp (hA.link ⟨_, hnd, mem_links.mp hm⟩)).2
    have hnclean : ¬ LinkND (A.set n.1 nd') n.1 x := by
      intro hc
      rcases (link_set (hlen _ (h.good.lt h1))).mp hc with ⟨_, h1⟩ | ⟨h1, _⟩
      · exact d3 h1
      · exact h1 rfl
    have hsafe : Safe reg (A.set n.1 nd') n.1 := by
      intro d hd q hq
      have hdL : d ∈ ptrs st ∧ d ≠ x := by
        rcases ReflTransGen.cases_head hd with rfl | ⟨c, hc, _⟩
        · exact ⟨h1, hnx⟩
        · refine ⟨?_, (hlk _ _ hc).1⟩
          by_contra hc'; exact h.good.quiet d hc' c (hlk _ _ hc).2
      have hqL : q ∈ ptrs st := h.good.reach hdL.1 (hrk _ _ hq)
      have hqx : q ≠ x := by
        rintro rfl
        rcases ReflTransGen.cases_tail hq with e | ⟨m, hm1, hm2⟩
        · exact hdL.2 e.symm
        · have := hu n.1 m d huser (hlk _ _ hm2).2 (hrk _ _ hd) (hrk _ _ hm1)
          rw [← this] at hm2
          exact hnclean hm2
      obtain ⟨nd, id, m, a1, a2, a3, _⟩ := hlive q hqL hqx _ hAll
      exact ⟨nd, id, m, a1, a2, a3⟩
    have hnl : NoLoops ((st.nodes.filter fun n => n.1 ≠ x).map (·.1)) (A.set n.1 nd') := by
      intro q hq hc
      exact h.loops q (filter_ptrs.mp hq).1 (TransGen.mono (fun a b hab => (hlk a b hab).2) _ _ hc)
    have hord : ∀ q ∈ (ρ (st.nodes.filter fun n => n.1 ≠ x)).map (·.1), q ∈ (st.nodes.filter fun n => n.1 ≠ x).map (·.1) := fun q hq => (mem_order hρ).mp hq
    constructor
    · refine preview_safe fuel n.1 _ hsafe (fun q hq => ?_)
      rw [hset.len]
      exact hlen q (h.good.lt (filter_ptrs.mp (hord q hq)).1)
    · refine preview_stops (L := (st.nodes.filter fun n : Nat × Nat => n.1 ≠ x).map (fun n : Nat × Nat => n.1)) hord hnl fuel n.1 _ [] ?_
        List.nodup_nil (by simp) (filter_ptrs.mpr ⟨h1, hnx⟩) (by simp) (by simp) (Less.refl _) hsafe
      have := List.length_filter_le (fun n : Nat × Nat => n.1 ≠ x) st.nodes
      simp only [List.length_map, List.length_nil, Nat.add_zero]
      omega
  · exact ⟨(by intro h; cases h), (by intro h; cases h)⟩

theorem delete_safe {reg ρ fuel} {st : Ed} (hr : FewLinks reg) (hρ : IsOrder ρ) (h : Inv reg st) (hfu : st.nodes.length < fuel) {x : Nat} (hx : x ∈ ptrs st)
    (hu : Unshared st.arena x) : ∃ st', deleteNode reg ρ fuel st x = .ok st' := by
  rw [delete_eq]
  have a1 := forEach_safe (f := deleteBody reg ((ρ (st.nodes.filter fun n => n.1 ≠ x)).map (·.1)) fuel x) (P := fun A => Less (kill st.arena x) A)
    (l := ρ (st.nodes.filter fun n => n.1 ≠ x)) .ub (by intro A h; cases h)
    (fun n hn A hA => ⟨(deleteBody_safe hr hρ h hfu hx hu hn hA).1, fun A' hA' => hA.trans (deleteBody_less hA')⟩) _ (Less.refl _)
  have a2 := forEach_safe (f := deleteBody reg ((ρ (st.nodes.filter fun n => n.1 ≠ x)).map (·.1)) fuel x) (P := fun A => Less (kill st.arena x) A)
    (l := ρ (st.nodes.filter fun n => n.1 ≠ x)) .deep (by intro A h; cases h)
    (fun n hn A hA => ⟨(deleteBody_safe hr hρ h hfu hx hu hn hA).2, fun A' hA' => hA.trans (deleteBody_less hA')⟩) _ (Less.refl _)
  cases hv : forEach (deleteBody reg ((ρ (st.nodes.filter fun n => n.1 ≠ x)).map (·.1)) fuel x) (ρ (st.nodes.filter fun n => n.1 ≠ x)) (kill st.arena x) with
  | ub => exact absurd hv a1
  | deep => exact absurd hv a2
  | ok A => exact ⟨_, rfl⟩

end FastNoise.Editor
