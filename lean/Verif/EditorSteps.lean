import Verif.EditorOps
/-! # Every editor operation -/
namespace FastNoise.Editor
open FastNoise.Ser FastNoise.Deser FastNoise.Stream FastNoise.Spec FastNoise.RT
open Relation

/-! ## Cycles -/

theorem reach_set {A : Arena} {p c : Nat} {nd' : NodeData} (hp : p < A.length) (h : ReflTransGen (LinkND (A.set p nd')) c p) : Reach A c p := by
  induction h using ReflTransGen.head_induction_on with
  | refl => exact .refl
  | head h1 _ ih =>
    rcases (link_set hp).mp h1 with ⟨rfl, _⟩ | ⟨_, h2⟩
    · exact .refl
    · exact ReflTransGen.head h2 ih

theorem cycle_set {A : Arena} {p : Nat} {nd' : NodeData} (hp : p < A.length) (h : TransGen (LinkND (A.set p nd')) p p) : ∃ c, NLink nd' c ∧ Reach A c p := by
  obtain ⟨c, h1, h2⟩ := TransGen.head'_iff.mp h
  rcases (link_set hp).mp h1 with ⟨_, h3⟩ | ⟨h3, _⟩
  · exact ⟨c, h3, reach_set hp h2⟩
  · exact absurd rfl h3

/-- If serialising with fix-up leaves no cycle, the previews end. -/
theorem preview_stops_fix {reg : Reg} {order : List Nat} {L : List Nat} (hL : ∀ q ∈ order, q ∈ L) {fuel p : Nat} {A B : Arena} (hB : fixOne reg p A = .ok B)
    (hac : ∀ q ∈ L, ¬ TransGen (LinkND B) q q) (hfu : L.length < fuel) (hp : p ∈ L) (hs : Safe reg B p) : preview reg order fuel p A ≠ .deep := by
  cases fuel with
  | zero => omega
  | succ f =>
    rw [preview, hB]
    simp only [Out.bind]
    refine forEach_safe (P := fun C => Less B C) .deep (by intro A h; cases h) ?_ B (Less.refl _)
    intro q hq C hC
    refine ⟨?_, ?_⟩
    · split
      · intro h; cases h
      · rename_i nd hnd
        by_cases hm : some p ∈ links nd
        · have hlink : LinkND B q p := hC.link ⟨nd, hnd, mem_links.mp hm⟩
          refine forEach_safe (P := fun D => Less B D) .deep (by intro A h; cases h) ?_ C hC
          intro l _ D hD
          split_ifs
          · refine ⟨preview_stops hL hac f q D [p] (by simp; omega) (List.nodup_singleton p) (by simpa using hp) (hL q hq) ?_ (by simp only [List.mem_singleton, forall_eq]; exact ReflTransGen.single hlink) hD
              (fun d hd => hs d (hd.tail hlink)), fun E hE => hD.trans (preview_less _ _ _ _ hE)⟩
            intro h
            rw [List.mem_singleton] at h; subst h
            exact hac q hp (.single hlink)
          · exact ⟨(by intro h; cases h), fun E hE => by cases hE; exact hD⟩
        · refine forEach_safe (P := fun _ => True) .deep (by intro A h; cases h) ?_ C trivial
          intro l hl D _
          have : l ≠ some p := by rintro rfl; exact hm hl
          rw [if_neg this]
          exact ⟨(by intro h; cases h), fun _ _ => trivial⟩
    · intro C' hC'
      split at hC'
      · cases hC'
      · refine hC.trans (forEach_less ?_ C C' hC')
        intro l _ D D' hD
        split_ifs at hD
        · exact preview_less _ _ _ _ hD
        · cases hD; exact Less.refl _

/-! ## New nodes -/

theorem newNodeData_spec {reg : Reg} {md : Nat} {nd : NodeData} (h : newNodeData reg md = some nd) :
    Shaped reg nd ∧ (∀ c, ¬ NLink nd c) ∧ ∃ m, reg[md]? = some m ∧ (links nd).length = m.lookups.length + m.hybrids.length := by
  unfold newNodeData at h
  rw [Option.map_eq_some_iff] at h
  obtain ⟨m, hm, rfl⟩ := h
  refine ⟨⟨md, m, rfl, hm, rfl, by simp, by simp⟩, ?_, m, hm, by simp [length_links]⟩
  rintro c (h | ⟨v, h⟩)
  · simp at h
  · simp at h

theorem shift_new {b : Nat} {nd : NodeData} (h : ∀ c, ¬ NLink nd c) : shift b nd = nd := by
  unfold shift
  have h1 : nd.lookups.map (Option.map (b + ·)) = nd.lookups := by
    conv_rhs => rw [← List.map_id nd.lookups]
    refine List.map_congr_left fun x hx => ?_
    cases x with
    | none => rfl
    | some c => exact absurd (Or.inl hx) (h c)
  have h2 : nd.hybrids.map (fun h => (h.1.map (b + ·), h.2)) = nd.hybrids := by
    conv_rhs => rw [← List.map_id nd.hybrids]
    refine List.map_congr_left fun x hx => ?_
    obtain ⟨a, v⟩ := x
    cases a with
    | none => rfl
    | some c => exact absurd (Or.inr ⟨v, hx⟩) (h c)
  rw [h1, h2]

theorem pre_new {reg} {st : Ed} {nd : NodeData} (h : Inv reg st) (hs : Shaped reg nd) (hl : ∀ c, ¬ NLink nd c) :
    Pre reg (st.arena.length :: ptrs st) { st with arena := st.arena ++ [nd] } ∧ st.arena.length ∉ ptrs st := by
  obtain ⟨a, b, _⟩ := pre_append (nds := [nd]) h (by simpa using hs) (by
    rintro p c ⟨n, hn, hc⟩
    have := (List.getElem?_eq_some_iff.mp hn).1
    simp at this; subst this
    simp at hn; subst hn
    exact absurd hc (hl c))
  simp only [List.map_cons, List.map_nil, shift_new hl] at a
  refine ⟨by simpa [List.range_succ] using a, ?_⟩
  intro h'
  have := h.good.lt h'
  omega

theorem inv_of_pre {reg L} {st : Ed} (h : Pre reg L st) (e : ∀ p ∈ L, p ∈ ptrs st) : Inv reg st :=
  ⟨h.good.congr fun p => ⟨e p, h.sub p⟩, fun q hq => h.loops q (h.sub q hq), fun _ hp => hp, h.pnd, h.idnd, h.idr, h.ctr⟩

theorem addNew_ok {reg ρ fuel} {st st' : Ed} {nd : NodeData} (h : Inv reg st) (hs : Shaped reg nd) (hl : ∀ c, ¬ NLink nd c)
    (e : addData reg ρ fuel { st with arena := st.arena ++ [nd] } st.arena.length = .ok st') :
    Inv reg st' ∧ ptrs st' = st.arena.length :: ptrs st ∧ st'.dropped = st.dropped ∧ Less (st.arena ++ [nd]) st'.arena := by
  obtain ⟨a, b⟩ := pre_new h hs hl
  obtain ⟨c1, c2, c3, c4⟩ := addData_ok a (by simp) b e
  exact ⟨inv_of_pre c1 (by rw [c2]; exact fun p hp => hp), c2, c3, c4⟩

theorem addNew_safe {reg ρ fuel} {st : Ed} {nd : NodeData} (hρ : IsOrder ρ) (h : Inv reg st) (hs : Shaped reg nd) (hl : ∀ c, ¬ NLink nd c) :
    addData reg ρ fuel { st with arena := st.arena ++ [nd] } st.arena.length ≠ .ub :=
  addData_safe hρ (pre_new h hs hl).1 (by simp)

theorem addNew_stops {reg ρ fuel} {st : Ed} {nd : NodeData} (hρ : IsOrder ρ) (h : Inv reg st) (hs : Shaped reg nd) (hl : ∀ c, ¬ NLink nd c)
    (hf : st.nodes.length + 1 < fuel) (hm : maxId ≤ fuel) (hn : st.nodes.length < maxId) :
    addData reg ρ fuel { st with arena := st.arena ++ [nd] } st.arena.length ≠ .deep :=
  addData_stops hρ (pre_new h hs hl).1 (by simp) (by simpa [ptrs] using hf) hm hn

/-! ## Dropped links -/

theorem nlink_of_links {nd nd' : NodeData} {k : Nat} {v : Option Nat} (h : links nd' = (links nd).set k v) {c : Nat} (hc : NLink nd' c) : NLink nd c ∨ v = some c := by
  have := mem_links.mpr hc
  rw [h] at this
  rcases List.mem_or_eq_of_mem_set this with h1 | h1
  · exact Or.inl (mem_links.mp h1)
  · exact Or.inr h1.symm

theorem setLink0 {nd : NodeData} (hk : 0 < (links nd).length) (h16 : (links nd).length ≤ 16) (v : Option Nat) :
    ∃ nd', setLink nd 0 v = some nd' ∧ nd'.md = nd.md ∧ nd'.vars = nd.vars ∧ nd'.lookups.length = nd.lookups.length ∧
      nd'.hybrids.map (·.2) = nd.hybrids.map (·.2) ∧ links nd' = (links nd).set 0 v := by
  have := setLink_spec (id := 0) (Nat.zero_le _) hk h16 v
  rwa [startAttr_eq (Nat.zero_le _)] at this

/-! ## Conversion -/

theorem fillLinks_length : ∀ (a b : List (Option Nat)), (fillLinks a b).length = b.length
  | l :: ls, s :: ss => by simp [fillLinks, fillLinks_length ls ss]
  | [], ss => by simp [fillLinks]
  | _ :: _, [] => by simp [fillLinks]

theorem fillLinks_mem : ∀ (a b : List (Option Nat)) (x : Option Nat), x ∈ fillLinks a b → x ∈ a ∨ x ∈ b
  | l :: ls, s :: ss, x, h => by
    rw [fillLinks] at h
    rcases List.mem_cons.mp h with rfl | h
    · exact Or.inl (by simp)
    · rcases fillLinks_mem ls ss x h with h | h
      · exact Or.inl (by simp [h])
      · exact Or.inr (by simp [h])
  | [], ss, x, h => by rw [fillLinks] at h; exact Or.inr h
  | _ :: _, [], x, h => by rw [fillLinks] at h; cases h; simp

theorem converted_spec {reg : Reg} {nd nd' : NodeData} {md : Nat} {same : Bool} (h : converted reg nd md same = some nd') :
    Shaped reg nd' ∧ nd'.md = some md ∧ ∀ c, NLink nd' c → NLink nd c := by
  unfold converted at h
  rw [Option.map_eq_some_iff] at h
  obtain ⟨new, hn, e⟩ := h
  obtain ⟨⟨id, m, s1, s2, s3, s4, s5⟩, hno, m', hm', _⟩ := newNodeData_spec hn
  have hmd : new.md = some md := by
    unfold newNodeData at hn; rw [Option.map_eq_some_iff] at hn; obtain ⟨_, _, rfl⟩ := hn; rfl
  have hid : id = md := by rw [s1] at hmd; cases hmd; rfl
  subst hid
  split_ifs at e with hc
  · subst e
    obtain ⟨_, c1, c2, c3⟩ := hc
    exact ⟨⟨id, m, rfl, s2, by simp only; omega, by simp only; omega, by simp only; omega⟩, rfl, fun c hc => hc⟩
  · subst e
    refine ⟨⟨id, m, hmd, s2, s3, ?_, ?_⟩, hmd, ?_⟩
    · simp only [fillLinks_length]; exact s4
    · simp only [List.length_zip, fillLinks_length, List.length_map]; omega
    · rintro c (hc | ⟨v, hc⟩)
      · simp only at hc
        rcases fillLinks_mem _ _ _ hc with h | h
        · exact mem_links.mp h
        · exact absurd (Or.inl h) (hno c)
      · simp only at hc
        rcases fillLinks_mem _ _ _ (List.of_mem_zip hc).1 with h | h
        · exact mem_links.mp (List.mem_of_mem_drop h)
        · rw [List.mem_map] at h
          obtain ⟨⟨a, w⟩, h1, h2⟩ := h
          simp at h2; subst h2
          exact absurd (Or.inr ⟨w, h1⟩) (hno c)

/-! ## Clearing -/

theorem kill_all : ∀ (l : List (Nat × Nat)) (A : Arena) (p c : Nat), LinkND (l.foldl (fun A n => kill A n.1) A) p c → LinkND A p c ∧ p ∉ l.map (·.1) := by
  intro l
  induction l with
  | nil => intro A p c h; exact ⟨h, by simp⟩
  | cons n l ih =>
    intro A p c h
    rw [List.foldl_cons] at h
    obtain ⟨h1, h2⟩ := ih _ _ _ h
    by_cases hlt : n.1 < A.length
    · obtain ⟨h3, h4⟩ := (link_kill hlt).mp h1
      refine ⟨h4, ?_⟩
      rw [List.map_cons, List.mem_cons, not_or]; exact ⟨h3, h2⟩
    · have : kill A n.1 = A := by unfold kill; exact List.set_eq_of_length_le (by omega)
      rw [this] at h1
      refine ⟨h1, ?_⟩
      rw [List.map_cons, List.mem_cons, not_or]
      refine ⟨?_, h2⟩
      rintro rfl
      obtain ⟨x, hx, _⟩ := h1
      exact hlt (List.getElem?_eq_some_iff.mp hx).1

theorem clear_ok {reg} {st : Ed} (h : Inv reg st) : Inv reg { st with arena := st.nodes.foldl (fun A n => kill A n.1) st.arena, nodes := [] } := by
  refine ⟨⟨by intro p hp; simp [ptrs] at hp, by intro p hp; simp [ptrs] at hp, ?_⟩, by intro q hq; simp [ptrs] at hq, fun _ hp => hp, by simp [ptrs], by simp [ids],
    by intro i hi; simp [ids] at hi, h.ctr⟩
  intro p _ c hc
  obtain ⟨h1, h2⟩ := kill_all _ _ _ _ hc
  exact h.good.quiet p h2 c h1

theorem inv_init (reg : Reg) : Inv reg init := by
  refine ⟨⟨by intro p hp; simp [ptrs, init] at hp, by intro p hp; simp [ptrs, init] at hp, ?_⟩, by intro q hq; simp [ptrs, init] at hq, fun _ hp => hp, by simp [ptrs, init], by simp [ids, init],
    by intro i hi; simp [ids, init] at hi, by rw [maxId_eq]; simp [init]⟩
  rintro p _ c ⟨n, hn, _⟩
  simp [init] at hn

end FastNoise.Editor
