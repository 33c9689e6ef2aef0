import Verif.RoundTrip3
import Verif.TreeSpec

/-! Helper lemmas: the serialiser with fixUp. -/
namespace FastNoise.RT
open FastNoise.Stream FastNoise.Ser FastNoise.Deser FastNoise.Spec FastNoise.Registry
open Relation

/-- `n` is `n0` with some links removed; `J i c` justifies removing source `c` in slot `i`, `K c` a hybrid. -/
structure NodeSub (J : Nat → Nat → Prop) (K : Nat → Prop) (n0 n : NodeData) : Prop where
  md : n.md = n0.md
  vars : n.vars = n0.vars
  llen : n.lookups.length = n0.lookups.length
  lk : ∀ (i : Nat) a b, n0.lookups[i]? = some a → n.lookups[i]? = some b →
    b = a ∨ (b = none ∧ ∃ c, a = some c ∧ J i c)
  hlen : n.hybrids.length = n0.hybrids.length
  hy : ∀ (i : Nat) a b, n0.hybrids[i]? = some a → n.hybrids[i]? = some b →
    b.2 = a.2 ∧ (b.1 = a.1 ∨ (b.1 = none ∧ ∃ c, a.1 = some c ∧ K c))

theorem NodeSub.refl (J K) (n : NodeData) : NodeSub J K n n :=
  ⟨rfl, rfl, rfl, fun i a b h1 h2 => Or.inl (by rw [h1] at h2; exact (Option.some.inj h2).symm), rfl,
    fun i a b h1 h2 => by rw [h1] at h2; cases h2; exact ⟨rfl, Or.inl rfl⟩⟩

theorem NodeSub.trans {J K} {a b c : NodeData} (h1 : NodeSub J K a b) (h2 : NodeSub J K b c) : NodeSub J K a c where
  md := h2.md.trans h1.md
  vars := h2.vars.trans h1.vars
  llen := h2.llen.trans h1.llen
  lk := by
    intro i x z hx hz
    have hi := (List.getElem?_eq_some_iff.mp hx).1
    have hy := List.getElem?_eq_getElem (show i < b.lookups.length by rw [h1.llen]; exact hi)
    have r1 := h1.lk i x _ hx hy
    have r2 := h2.lk i _ z hy hz
    rcases r1 with r1 | ⟨r1, c', e1, j1⟩
    · rcases r2 with r2 | ⟨r2, c', e2, j2⟩
      · exact Or.inl (r2.trans r1)
      · exact Or.inr ⟨r2, c', r1.symm.trans e2, j2⟩
    · rcases r2 with r2 | ⟨r2, _⟩
      · exact Or.inr ⟨r2.trans r1, c', e1, j1⟩
      · exact Or.inr ⟨r2, c', e1, j1⟩
  hlen := h2.hlen.trans h1.hlen
  hy := by
    intro i x z hx hz
    have hi := (List.getElem?_eq_some_iff.mp hx).1
    have hy := List.getElem?_eq_getElem (show i < b.hybrids.length by rw [h1.hlen]; exact hi)
    obtain ⟨v1, r1⟩ := h1.hy i x _ hx hy
    obtain ⟨v2, r2⟩ := h2.hy i _ z hy hz
    refine ⟨v2.trans v1, ?_⟩
    rcases r1 with r1 | ⟨r1, c', e1, j1⟩
    · rcases r2 with r2 | ⟨r2, c', e2, j2⟩
      · exact Or.inl (r2.trans r1)
      · exact Or.inr ⟨r2, c', r1.symm.trans e2, j2⟩
    · rcases r2 with r2 | ⟨r2, _⟩
      · exact Or.inr ⟨r2.trans r1, c', e1, j1⟩
      · exact Or.inr ⟨r2, c', e1, j1⟩

theorem NodeSub.mono {J J' : Nat → Nat → Prop} {K : Nat → Prop} {a b : NodeData} (h : NodeSub J K a b)
    (hj : ∀ i c, J i c → J' i c) : NodeSub J' K a b where
  md := h.md
  vars := h.vars
  llen := h.llen
  lk := fun i x y hx hy => (h.lk i x y hx hy).imp id fun ⟨e, c, e2, j⟩ => ⟨e, c, e2, hj i c j⟩
  hlen := h.hlen
  hy := h.hy

theorem NodeSub.lookup_mem {J K} {a b : NodeData} (h : NodeSub J K a b) {c : Nat} (hc : some c ∈ b.lookups) :
    some c ∈ a.lookups := by
  obtain ⟨i, hi⟩ := List.getElem?_of_mem hc
  have hlt := (List.getElem?_eq_some_iff.mp hi).1
  have ha := List.getElem?_eq_getElem (show i < a.lookups.length by rw [← h.llen]; exact hlt)
  rcases h.lk i _ _ ha hi with e | ⟨e, _⟩
  · rw [e]; exact List.getElem_mem _
  · simp at e

theorem NodeSub.hybrid_mem {J K} {a b : NodeData} (h : NodeSub J K a b) {c : Nat} {v : UInt32}
    (hc : (some c, v) ∈ b.hybrids) : (some c, v) ∈ a.hybrids := by
  obtain ⟨i, hi⟩ := List.getElem?_of_mem hc
  have hlt := (List.getElem?_eq_some_iff.mp hi).1
  have ha := List.getElem?_eq_getElem (show i < a.hybrids.length by rw [← h.hlen]; exact hlt)
  obtain ⟨e1, e2 | ⟨e2, _⟩⟩ := h.hy i _ _ ha hi
  · have : a.hybrids[i]'(by rw [← h.hlen]; exact hlt) = (some c, v) := Prod.ext e2.symm e1.symm
    rw [← this]; exact List.getElem_mem _
  · simp at e2

/-- Links of one node. -/
def NLink (n : NodeData) (c : Nat) : Prop := some c ∈ n.lookups ∨ ∃ v, (some c, v) ∈ n.hybrids

theorem linkND_iff {A : Arena} {p c : Nat} {n : NodeData} (h : A[p]? = some n) : LinkND A p c ↔ NLink n c := by
  constructor
  · rintro ⟨n', h', hl⟩
    rw [h] at h'; cases h'; exact hl
  · intro hl; exact ⟨n, h, hl⟩

theorem cut_sub {deps : List Nat} {n : NodeData} {J : Nat → Nat → Prop} {K : Nat → Prop}
    (hJ : ∀ c i, NLink n c → c ∈ deps → J i c) (hK : ∀ c, NLink n c → c ∈ deps → K c) :
    NodeSub J K n (cutLoops deps n) where
  md := rfl
  vars := rfl
  llen := by simp [cutLoops]
  lk := by
    intro i a b ha hb
    simp only [cutLoops, List.getElem?_map, ha, Option.map_some, Option.some.injEq] at hb
    subst hb
    cases a with
    | none => exact Or.inl rfl
    | some c =>
      simp only
      split
      · rename_i hc
        exact Or.inr ⟨rfl, c, rfl, hJ c i (Or.inl (List.mem_of_getElem? ha)) hc⟩
      · exact Or.inl rfl
  hlen := by simp [cutLoops]
  hy := by
    intro i a b ha hb
    simp only [cutLoops, List.getElem?_map, ha, Option.map_some, Option.some.injEq] at hb
    subst hb
    obtain ⟨l, v⟩ := a
    cases l with
    | none => exact ⟨rfl, Or.inl rfl⟩
    | some c =>
      simp only
      split
      · rename_i hc
        exact ⟨rfl, Or.inr ⟨rfl, c, rfl, hK c (Or.inr ⟨v, List.mem_of_getElem? ha⟩) hc⟩⟩
      · exact ⟨rfl, Or.inl rfl⟩

theorem cut_not_mem {deps : List Nat} {n : NodeData} {c : Nat} (h : NLink (cutLoops deps n) c) : c ∉ deps := by
  rcases h with h | ⟨v, h⟩
  · simp only [cutLoops, List.mem_map] at h
    obtain ⟨x, _, e⟩ := h
    cases x with
    | none => simp at e
    | some q =>
      simp only at e
      split at e
      · simp at e
      · cases e; assumption
  · simp only [cutLoops, List.mem_map] at h
    obtain ⟨⟨x, w⟩, _, e⟩ := h
    cases x with
    | none => simp at e
    | some q =>
      simp only at e
      split at e
      · simp at e
      · cases e; assumption

theorem cut_id {deps : List Nat} {n : NodeData} (h : ∀ c, NLink n c → c ∉ deps) : cutLoops deps n = n := by
  obtain ⟨md, vars, lookups, hybrids⟩ := n
  simp only [cutLoops, NodeData.mk.injEq, true_and]
  constructor
  · conv => rhs; rw [← List.map_id lookups]
    apply List.map_congr_left
    intro x hx
    cases x with
    | none => rfl
    | some c => simp [h c (Or.inl hx)]
  · conv => rhs; rw [← List.map_id hybrids]
    apply List.map_congr_left
    intro x hx
    obtain ⟨l, v⟩ := x
    cases l with
    | none => rfl
    | some c => simp [h c (Or.inr ⟨v, hx⟩)]

/-- Arena version. -/
structure Sub (J : Nat → Nat → Nat → Prop) (K : Nat → Nat → Prop) (A0 A : Arena) : Prop where
  len : A.length = A0.length
  node : ∀ (p : Nat) n0 n, A0[p]? = some n0 → A[p]? = some n → NodeSub (J p) (K p) n0 n

theorem Sub.refl (J K) (A : Arena) : Sub J K A A :=
  ⟨rfl, fun p n0 n h h' => by rw [h] at h'; cases h'; exact .refl _ _ _⟩

theorem Sub.get {J K} {A0 A : Arena} (h : Sub J K A0 A) {p : Nat} {n0 : NodeData} (h0 : A0[p]? = some n0) :
    ∃ n, A[p]? = some n ∧ NodeSub (J p) (K p) n0 n := by
  have hlt := (List.getElem?_eq_some_iff.mp h0).1
  have := List.getElem?_eq_getElem (show p < A.length by rw [h.len]; exact hlt)
  exact ⟨_, this, h.node p n0 _ h0 this⟩

theorem Sub.link {J K} {A0 A : Arena} (h : Sub J K A0 A) {p c : Nat} (hl : LinkND A p c) : LinkND A0 p c := by
  obtain ⟨n, hn, hl⟩ := hl
  have hlt := (List.getElem?_eq_some_iff.mp hn).1
  have h0 := List.getElem?_eq_getElem (show p < A0.length by rw [← h.len]; exact hlt)
  have hs := h.node p _ n h0 hn
  refine ⟨_, h0, ?_⟩
  rcases hl with hl | ⟨v, hl⟩
  · exact Or.inl (hs.lookup_mem hl)
  · exact Or.inr ⟨v, hs.hybrid_mem hl⟩

theorem Sub.set {J K} {A0 A : Arena} (h : Sub J K A0 A) {p : Nat} {n n' : NodeData} (hn : A[p]? = some n)
    (hs : NodeSub (J p) (K p) n n') : Sub J K A0 (A.set p n') where
  len := by simp [h.len]
  node := by
    intro q n0 m h0 hm
    by_cases e : p = q
    · subst e
      have hlt := (List.getElem?_eq_some_iff.mp hn).1
      simp [hlt] at hm
      subst hm
      exact (h.node p n0 n h0 hn).trans hs
    · rw [List.getElem?_set_ne e] at hm
      exact h.node q n0 m h0 hm

theorem Sub.mono {J J' : Nat → Nat → Nat → Prop} {K} {A0 A : Arena} (h : Sub J K A0 A)
    (hj : ∀ p i c, J p i c → J' p i c) : Sub J' K A0 A :=
  ⟨h.len, fun p n0 n h0 hn => (h.node p n0 n h0 hn).mono (hj p)⟩

/-- Registered nodes only link to nodes registered before them. -/
inductive Ord (A : Arena) : List (Nat × Nat) → Prop
  | nil : Ord A []
  | cons {p k refs} : Ord A refs → refs.lookup p = none →
      (∀ c, LinkND A p c → ∃ k', refs.lookup c = some k') → Ord A ((p, k) :: refs)

theorem Ord.closed {A : Arena} {refs : List (Nat × Nat)} (h : Ord A refs) {p k : Nat}
    (hk : refs.lookup p = some k) : ∀ c, LinkND A p c → c ≠ p ∧ ∃ k', refs.lookup c = some k' := by
  induction h with
  | nil => simp [List.lookup] at hk
  | cons h1 h2 h3 ih =>
    rename_i q kq refs
    intro c hc
    rw [lookup_cons] at hk
    split at hk
    · rename_i e; subst e
      obtain ⟨k', hk'⟩ := h3 c hc
      have hne : c ≠ p := by rintro rfl; rw [h2] at hk'; simp at hk'
      exact ⟨hne, k', by rw [lookup_cons, if_neg hne]; exact hk'⟩
    · obtain ⟨hne, k', hk'⟩ := ih hk c hc
      refine ⟨hne, ?_⟩
      rw [lookup_cons]
      split
      · exact ⟨_, rfl⟩
      · exact ⟨k', hk'⟩

theorem Ord.congr {A B : Arena} {refs : List (Nat × Nat)} (h : Ord A refs)
    (hab : ∀ p k, refs.lookup p = some k → B[p]? = A[p]?) : Ord B refs := by
  induction h with
  | nil => exact .nil
  | cons h1 h2 h3 ih =>
    rename_i q kq refs
    refine .cons (ih ?_) h2 ?_
    · intro p k hk
      refine hab p k ?_
      rw [lookup_cons, if_neg]
      · exact hk
      · rintro rfl; rw [h2] at hk; simp at hk
    · intro c hc
      obtain ⟨n, hn, hl⟩ := hc
      rw [hab q kq (by rw [lookup_cons, if_pos rfl])] at hn
      exact h3 c ⟨n, hn, hl⟩

/-- A registered node reaches no registered node twice: the registered graph has no cycles. -/
theorem Ord.trans_mem {A : Arena} {refs : List (Nat × Nat)} (h : Ord A refs) {p k : Nat}
    (hk : refs.lookup p = some k) : ¬ TransGen (LinkND A) p p := by
  induction h generalizing p k with
  | nil => simp [List.lookup] at hk
  | cons h1 h2 h3 ih =>
    rename_i q kq refs
    -- everything reachable from a node of `refs` is in `refs`
    have stay : ∀ x y, (∃ k, refs.lookup x = some k) → ReflTransGen (LinkND A) x y → ∃ k, refs.lookup y = some k := by
      intro x y hx hxy
      induction hxy with
      | refl => exact hx
      | tail _ hl ih' =>
        obtain ⟨k', hk'⟩ := ih'
        exact (h1.closed hk' _ hl).2
    rw [lookup_cons] at hk
    split at hk
    · rename_i e; subst e
      intro ht
      obtain ⟨c, hc, hcp⟩ := TransGen.head'_iff.mp ht
      obtain ⟨k', hk'⟩ := stay c p (h3 c hc) hcp
      rw [h2] at hk'; simp at hk'
    · exact ih hk

/-- The link from `p` to `c` lies on a cycle of `A0`. -/
def OnCyc (root : Nat) (A0 : Arena) (p c : Nat) : Prop :=
  ReflTransGen (LinkND A0) root p ∧ ReflTransGen (LinkND A0) c p
/-- Slot `i` of `p` does not accept a source of `c`'s type. -/
def BadKind (root : Nat) (reg : Reg) (A0 : Arena) (p i c : Nat) : Prop :=
  ReflTransGen (LinkND A0) root p ∧ ∃ n id m k nc cid mc, A0[p]? = some n ∧ n.md = some id ∧ reg[id]? = some m ∧ m.lookups[i]? = some k ∧
    A0[c]? = some nc ∧ nc.md = some cid ∧ reg[cid]? = some mc ∧ accepts k mc = false

abbrev SubC (root : Nat) (A0 A : Arena) : Prop := Sub (fun p _ c => OnCyc root A0 p c) (OnCyc root A0) A0 A
abbrev SubX (root : Nat) (reg : Reg) (A0 A : Arena) : Prop :=
  Sub (fun p i c => OnCyc root A0 p c ∨ BadKind root reg A0 p i c) (OnCyc root A0) A0 A

/-- Every node below the root has registered metadata. -/
def AllMeta (reg : Reg) (A : Arena) (root : Nat) : Prop :=
  ∀ p, ReflTransGen (LinkND A) root p → ∃ nd id m, A[p]? = some nd ∧ nd.md = some id ∧ reg[id]? = some m

/-- Outcome of a (sub)serialisation with fixUp from `st`, the nodes in `fr` being in progress. -/
def FixQ (root : Nat) (reg : Reg) (A0 : Arena) (fr : List Nat) (st : St) (r : SR) (S : St → Prop) : Prop :=
  ∃ b st', r = .done b st' ∧ SubX root reg A0 st'.arena ∧ (b = true →
    SubC root A0 st'.arena ∧ Ord st'.arena st'.refs ∧ (∃ new, st'.refs = new ++ st.refs) ∧
    (∀ d ∈ fr, st'.arena[d]? = st.arena[d]? ∧ st'.refs.lookup d = none) ∧
    (∀ p k, st.refs.lookup p = some k → st'.arena[p]? = st.arena[p]? ∧ st'.refs.lookup p = some k) ∧ S st')


/-- `B` has the same registered nodes. -/
def Agree (st' : St) (B : Arena) : Prop := ∀ p k, st'.refs.lookup p = some k → B[p]? = st'.arena[p]?

/-- Requirements on the state before a (sub)serialisation. -/
structure FixI (root : Nat) (A0 : Arena) (fr : List Nat) (st : St) : Prop where
  sub : SubC root A0 st.arena
  ord : Ord st.arena st.refs
  fr : ∀ d ∈ fr, st.refs.lookup d = none

/-- What a successful recursive call for `c` achieves. -/
def RecS (recF : Nat → List Nat → St → SR) (c : Nat) (st st' : St) : Prop :=
  (∃ k, st'.refs.lookup c = some k) ∧ ∀ B deps', Agree st' B →
    recF c deps' { arena := B, ws := st.ws, refs := st.refs } = .done true { arena := B, ws := st'.ws, refs := st'.refs }

theorem testSource_eq {reg : Reg} {A0 A : Arena} {J K} (hs : Sub J K A0 A) {k : Kind} {c : Nat} {nc : NodeData} {cid : Nat}
    {mc : Meta} (h1 : A0[c]? = some nc) (h2 : nc.md = some cid) (h3 : reg[cid]? = some mc) :
    testSource reg A k c = some (accepts k mc) := by
  obtain ⟨n, hn, hsub⟩ := hs.get h1
  simp [testSource, hn, hsub.md, h2, h3]

theorem FixQ.step {root : Nat} {reg : Reg} {A0 : Arena} {fr : List Nat} {st st1 : St} {r : SR} {S T : St → Prop}
    (h : FixQ root reg A0 fr st1 r T) (hnew : ∃ new, st1.refs = new ++ st.refs)
    (hfr : ∀ d ∈ fr, st1.arena[d]? = st.arena[d]?)
    (hreg : ∀ p k, st.refs.lookup p = some k → st1.arena[p]? = st.arena[p]? ∧ st1.refs.lookup p = some k)
    (hS : ∀ st', T st' → (∀ d ∈ fr, st'.arena[d]? = st1.arena[d]?) →
      (∀ p k, st1.refs.lookup p = some k → st'.arena[p]? = st1.arena[p]? ∧ st'.refs.lookup p = some k) → S st') :
    FixQ root reg A0 fr st r S := by
  obtain ⟨b, st', e, hx, hb⟩ := h
  refine ⟨b, st', e, hx, fun hbt => ?_⟩
  obtain ⟨c1, c2, ⟨n2, c3⟩, c4, c5, c6⟩ := hb hbt
  obtain ⟨n1, e1⟩ := hnew
  refine ⟨c1, c2, ⟨n2 ++ n1, by rw [c3, e1, List.append_assoc]⟩, ?_, ?_, hS st' c6 (fun d hd => (c4 d hd).1) c5⟩
  · intro d hd
    exact ⟨(c4 d hd).1.trans (hfr d hd), (c4 d hd).2⟩
  · intro p k hk
    obtain ⟨f1, f2⟩ := hreg p k hk
    obtain ⟨g1, g2⟩ := c5 p k f2
    exact ⟨g1.trans f1, g2⟩

theorem fixLookups {root : Nat} {reg : Reg} {A0 : Arena} {ptr : Nat} {fr : List Nat} {n1 : NodeData} {m : Meta} {id : Nat}
    {rec recF : Nat → List Nat → St → SR} (hptr : ptr ∈ fr)
    (hroot : ReflTransGen (LinkND A0) root ptr) (hm0 : ∃ n0, A0[ptr]? = some n0 ∧ n0.md = some id) (hm : reg[id]? = some m)
    (hlen : n1.lookups.length = m.lookups.length)
    (hmeta : ∀ c, NLink n1 c → ∃ nc cid mc, A0[c]? = some nc ∧ nc.md = some cid ∧ reg[cid]? = some mc)
    (hrec : ∀ c st, NLink n1 c → FixI root A0 fr st → FixQ root reg A0 fr st (rec c fr st) (RecS recF c st)) :
    ∀ (ks : List Kind) (i : Nat) (st : St), m.lookups.drop i = ks → i + ks.length = m.lookups.length →
      FixI root A0 fr st → st.arena[ptr]? = some n1 →
      FixQ root reg A0 fr st (serLookups reg true rec ptr fr i ks st) (fun st' =>
        (∀ (j : Nat) c, i ≤ j → n1.lookups[j]? = some (some c) → ∃ k, st'.refs.lookup c = some k) ∧
        ∀ B deps', Agree st' B → B[ptr]? = some n1 →
          serLookups reg false recF ptr deps' i ks { arena := B, ws := st.ws, refs := st.refs } =
            .done true { arena := B, ws := st'.ws, refs := st'.refs }) := by
  intro ks
  induction ks with
  | nil =>
    intro i st hk hi hI hn
    simp only [List.length_nil, Nat.add_zero] at hi
    refine ⟨true, st, by simp [serLookups], hI.sub.mono (fun _ _ _ h => Or.inl h), fun _ => ⟨hI.sub, hI.ord, ⟨[], rfl⟩,
      fun d hd => ⟨rfl, hI.fr d hd⟩, fun p k hk => ⟨rfl, hk⟩, ?_, ?_⟩⟩
    · intro j c hj hc
      have := (List.getElem?_eq_some_iff.mp hc).1
      omega
    · intro B deps' _ _; simp [serLookups]
  | cons kd ks ih =>
    intro i st hk hi hI hn
    simp only [List.length_cons] at hi
    have hki : m.lookups[i]? = some kd := by
      have : (m.lookups.drop i)[0]? = some kd := by rw [hk]; rfl
      simpa using this
    have hkd : m.lookups.drop (i + 1) = ks := by
      have := congrArg List.tail hk
      simpa [List.tail_drop] using this
    obtain ⟨x, hx⟩ : ∃ x, n1.lookups[i]? = some x := ⟨_, List.getElem?_eq_getElem (by omega)⟩
    simp only [serLookups, hn, hx]
    cases x with
    | none => exact ⟨false, st, rfl, hI.sub.mono (fun _ _ _ h => Or.inl h), by simp⟩
    | some c =>
      have hl : NLink n1 c := Or.inl (List.mem_of_getElem? hx)
      obtain ⟨nc, cid, mc, c1, c2, c3⟩ := hmeta c hl
      simp only [if_true, testSource_eq hI.sub c1 c2 c3]
      cases hacc : accepts kd mc with
      | false =>
        refine ⟨false, _, rfl, ?_, by simp⟩
        refine (hI.sub.mono (J' := fun p i c => OnCyc root A0 p c ∨ BadKind root reg A0 p i c) (fun _ _ _ h => Or.inl h)).set hn ?_
        obtain ⟨n0, z1, z2⟩ := hm0
        refine ⟨rfl, rfl, by simp, ?_, rfl, fun j a b ha hb => ?_⟩
        · intro j a b ha hb
          by_cases e : i = j
          · subst e
            rw [hx] at ha; cases ha
            have hlt := (List.getElem?_eq_some_iff.mp hx).1
            simp [hlt] at hb
            exact Or.inr ⟨hb.symm, c, rfl, Or.inr ⟨hroot, n0, id, m, kd, nc, cid, mc, z1, z2, hm, hki, c1, c2, c3, hacc⟩⟩
          · rw [List.getElem?_set_ne e] at hb
            rw [ha] at hb; exact Or.inl (Option.some.inj hb).symm
        · rw [ha] at hb; cases hb; exact ⟨rfl, Or.inl rfl⟩
      | true =>
        obtain ⟨b, st1, e1, x1, hb⟩ := hrec c st hl hI
        simp only [e1]
        cases b with
        | false => exact ⟨false, st1, rfl, x1, by simp⟩
        | true =>
          obtain ⟨d1, d2, d3, d4, d5, ⟨k1, hk1⟩, d7⟩ := hb rfl
          have hI1 : FixI root A0 fr st1 := ⟨d1, d2, fun d hd => (d4 d hd).2⟩
          have hn1 : st1.arena[ptr]? = some n1 := by rw [(d4 ptr hptr).1]; exact hn
          refine (ih (i + 1) st1 hkd (by omega) hI1 hn1).step d3 (fun d hd => (d4 d hd).1) d5 ?_
          rintro st' ⟨f1, f2⟩ g1 g2
          refine ⟨?_, ?_⟩
          · intro j c' hj hc'
            by_cases e : j = i
            · subst e
              rw [hx] at hc'; cases hc'
              exact ⟨k1, (g2 c k1 hk1).2⟩
            · exact f1 j c' (by omega) hc'
          · intro B deps' hB hBp
            simp only [hBp, hx, Bool.false_eq_true, if_false]
            have : Agree st1 B := by
              intro p k hk
              obtain ⟨a1, a2⟩ := g2 p k hk
              rw [hB p k a2, a1]
            rw [d7 B deps' this]
            exact f2 B deps' hB hBp

theorem fixHybrids {root : Nat} {reg : Reg} {A0 : Arena} {ptr : Nat} {fr : List Nat} {n1 : NodeData}
    {rec recF : Nat → List Nat → St → SR} (hptr : ptr ∈ fr)
    (hmeta : ∀ c, NLink n1 c → ∃ nc cid mc, A0[c]? = some nc ∧ nc.md = some cid ∧ reg[cid]? = some mc)
    (hrec : ∀ c st, NLink n1 c → FixI root A0 fr st → FixQ root reg A0 fr st (rec c fr st) (RecS recF c st)) :
    ∀ (ds : List UInt32) (i : Nat) (st : St), i + ds.length = n1.hybrids.length →
      FixI root A0 fr st → st.arena[ptr]? = some n1 →
      FixQ root reg A0 fr st (serHybrids reg true rec ptr fr i ds st) (fun st' =>
        (∀ (j : Nat) c v, i ≤ j → n1.hybrids[j]? = some (some c, v) → ∃ k, st'.refs.lookup c = some k) ∧
        ∀ B deps', Agree st' B → B[ptr]? = some n1 →
          serHybrids reg false recF ptr deps' i ds { arena := B, ws := st.ws, refs := st.refs } =
            .done true { arena := B, ws := st'.ws, refs := st'.refs }) := by
  intro ds
  induction ds with
  | nil =>
    intro i st hi hI hn
    simp only [List.length_nil, Nat.add_zero] at hi
    refine ⟨true, st, by simp [serHybrids], hI.sub.mono (fun _ _ _ h => Or.inl h), fun _ => ⟨hI.sub, hI.ord, ⟨[], rfl⟩,
      fun d hd => ⟨rfl, hI.fr d hd⟩, fun p k hk => ⟨rfl, hk⟩, ?_, ?_⟩⟩
    · intro j c v hj hc
      have := (List.getElem?_eq_some_iff.mp hc).1
      omega
    · intro B deps' _ _; simp [serHybrids]
  | cons d ds ih =>
    intro i st hi hI hn
    simp only [List.length_cons] at hi
    obtain ⟨⟨x, v⟩, hx⟩ : ∃ x, n1.hybrids[i]? = some x := ⟨_, List.getElem?_eq_getElem (by omega)⟩
    simp only [serHybrids, hn, hx]
    cases x with
    | none =>
      simp only
      refine (ih (i + 1) { arena := st.arena, ws := (if feq v d = true then st.ws else (st.ws.addLookup tHybridVariable i).add (le32 v)), refs := st.refs } (by omega) ⟨hI.sub, hI.ord, hI.fr⟩ hn).step ⟨[], rfl⟩ (fun _ _ => rfl) (fun p k hk => ⟨rfl, hk⟩) ?_
      rintro st' ⟨f1, f2⟩ g1 g2
      refine ⟨?_, ?_⟩
      · intro j c v' hj hc
        by_cases e : j = i
        · subst e; rw [hx] at hc; simp at hc
        · exact f1 j c v' (by omega) hc
      · intro B deps' hB hBp
        simp only [hBp, hx]
        exact f2 B deps' hB hBp
    | some c =>
      have hl : NLink n1 c := Or.inr ⟨v, List.mem_of_getElem? hx⟩
      obtain ⟨nc, cid, mc, c1, c2, c3⟩ := hmeta c hl
      simp only [if_true, testSource_eq hI.sub c1 c2 c3, accepts]
      obtain ⟨b, st1, e1, x1, hb⟩ := hrec c { arena := st.arena, ws := st.ws.addLookup tHybridLookup i, refs := st.refs }
        hl ⟨hI.sub, hI.ord, hI.fr⟩
      simp only [e1]
      cases b with
      | false => exact ⟨false, st1, rfl, x1, by simp⟩
      | true =>
        obtain ⟨d1, d2, d3, d4, d5, ⟨k1, hk1⟩, d7⟩ := hb rfl
        have hI1 : FixI root A0 fr st1 := ⟨d1, d2, fun d hd => (d4 d hd).2⟩
        have hn1 : st1.arena[ptr]? = some n1 := by rw [(d4 ptr hptr).1]; exact hn
        refine (ih (i + 1) st1 (by omega) hI1 hn1).step d3 (fun d hd => (d4 d hd).1) d5 ?_
        rintro st' ⟨f1, f2⟩ g1 g2
        refine ⟨?_, ?_⟩
        · intro j c' v' hj hc'
          by_cases e : j = i
          · subst e
            rw [hx] at hc'; cases hc'
            exact ⟨k1, (g2 c k1 hk1).2⟩
          · exact f1 j c' v' (by omega) hc'
        · intro B deps' hB hBp
          simp only [hBp, hx, Bool.false_eq_true, if_false]
          have : Agree st1 B := by
            intro p k hk
            obtain ⟨a1, a2⟩ := g2 p k hk
            rw [hB p k a2, a1]
          rw [d7 B deps' this]
          exact f2 B deps' hB hBp

theorem fixMain {reg : Reg} {A0 : Arena} {root : Nat} (hmeta : AllMeta reg A0 root) :
    ∀ (fuel ptr : Nat) (deps : List Nat) (st : St), ReflTransGen (LinkND A0) root ptr → FixI root A0 deps st →
      ptr ∉ deps → deps.Nodup → (∀ d ∈ deps, d < A0.length ∧ TransGen (LinkND A0) d ptr) →
      A0.length < fuel + deps.length →
      FixQ root reg A0 deps st (ser reg true fuel ptr deps st) (RecS (ser reg false fuel) ptr st) := by
  intro fuel
  induction fuel with
  | zero =>
    intro ptr deps st _ _ _ hn hd hf
    have := nodup_length_le hn (fun q hq => (hd q hq).1)
    omega
  | succ fuel ih =>
    intro ptr deps st hr hI hnm hnd hd hf
    obtain ⟨n0, id, m, hA0, hid, hm⟩ := hmeta ptr hr
    obtain ⟨n, hA, hsub⟩ := hI.sub.get hA0
    have hlt : ptr < A0.length := (List.getElem?_eq_some_iff.mp hA0).1
    have hidn : n.md = some id := by rw [hsub.md]; exact hid
    rw [ser]
    simp only [hA, hidn, hm, if_true]
    split
    · exact ⟨false, st, rfl, hI.sub.mono (fun _ _ _ h => Or.inl h), by simp⟩
    · rename_i hsz
      cases href : st.refs.lookup ptr with
      | some r =>
        simp only
        -- a registered node has no link into the path
        have hcut : cutLoops (ptr :: deps) n = n := by
          refine cut_id (fun c hc => ?_)
          obtain ⟨hne, k', hk'⟩ := hI.ord.closed href c ((linkND_iff hA).mpr hc)
          intro hmem
          rcases List.mem_cons.mp hmem with e | e
          · exact hne e
          · rw [hI.fr c e] at hk'; simp at hk'
        have hset : st.arena.set ptr n = st.arena := by
          apply List.ext_getElem?
          intro j
          by_cases e : ptr = j
          · subst e
            obtain ⟨h, e⟩ := List.getElem?_eq_some_iff.mp hA
            simp [h, e]
          · rw [List.getElem?_set_ne e]
        rw [hcut, hset]
        refine ⟨true, _, rfl, hI.sub.mono (fun _ _ _ h => Or.inl h), fun _ => ⟨hI.sub, hI.ord, ⟨[], rfl⟩,
          fun d hd => ⟨rfl, hI.fr d hd⟩, fun p k hk => ⟨rfl, hk⟩, ⟨r, href⟩, ?_⟩⟩
        intro B deps' hB
        have hBp : B[ptr]? = some n := by rw [hB ptr r href]; exact hA
        rw [ser]
        simp only [hBp, hidn, hm, Bool.false_eq_true, if_false, href]
        rw [if_neg hsz]
      | none =>
        simp only
        generalize hn1 : cutLoops (ptr :: deps) n = n1
        -- links of the cut node
        have hlink0 : ∀ c, NLink n c → LinkND A0 ptr c := fun c hc => hI.sub.link ((linkND_iff hA).mpr hc)
        have hcyc : ∀ c, NLink n c → c ∈ ptr :: deps → OnCyc root A0 ptr c := by
          intro c hc hmem
          rcases List.mem_cons.mp hmem with e | e
          · rw [e]; exact ⟨hr, .refl⟩
          · exact ⟨hr, ((hd c e).2).to_reflTransGen⟩
        have hcs : NodeSub (fun _ c => OnCyc root A0 ptr c) (OnCyc root A0 ptr) n n1 := by
          rw [← hn1]
          exact cut_sub (fun c _ hc hmem => hcyc c hc hmem) hcyc
        have hsub1 : SubC root A0 (st.arena.set ptr n1) := hI.sub.set hA hcs
        have hlt1 : ptr < st.arena.length := (List.getElem?_eq_some_iff.mp hA).1
        have hget1 : (st.arena.set ptr n1)[ptr]? = some n1 := by simp [hlt1]
        have hframe1 : ∀ q, q ≠ ptr → (st.arena.set ptr n1)[q]? = st.arena[q]? :=
          fun q hq => List.getElem?_set_ne (Ne.symm hq)
        have hregne : ∀ p k, st.refs.lookup p = some k → p ≠ ptr := by
          rintro p k hk rfl; rw [href] at hk; simp at hk
        have hI1 : ∀ ws, FixI root A0 (ptr :: deps) { arena := st.arena.set ptr n1, ws := ws, refs := st.refs } := by
          intro ws
          refine ⟨hsub1, hI.ord.congr (fun p k hk => hframe1 p (hregne p k hk)), ?_⟩
          intro d hd'
          rcases List.mem_cons.mp hd' with e | e
          · rw [e]; exact href
          · exact hI.fr d e
        have hl1 : ∀ c, NLink n1 c → NLink n c := by
          rintro c (hc | ⟨v, hc⟩)
          · exact Or.inl (hcs.lookup_mem hc)
          · exact Or.inr ⟨v, hcs.hybrid_mem hc⟩
        have hnot : ∀ c, NLink n1 c → c ∉ ptr :: deps := by
          intro c hc; rw [← hn1] at hc; exact cut_not_mem hc
        have hmeta1 : ∀ c, NLink n1 c → ∃ nc cid mc, A0[c]? = some nc ∧ nc.md = some cid ∧ reg[cid]? = some mc :=
          fun c hc => hmeta c (hr.tail (hlink0 c (hl1 c hc)))
        have hrec : ∀ c st, NLink n1 c → FixI root A0 (ptr :: deps) st →
            FixQ root reg A0 (ptr :: deps) st (ser reg true fuel c (ptr :: deps) st) (RecS (ser reg false fuel) c st) := by
          intro c st hc hI'
          have hl0 := hlink0 c (hl1 c hc)
          refine ih c (ptr :: deps) st (hr.tail hl0) hI' (hnot c hc) (List.nodup_cons.mpr ⟨hnm, hnd⟩) ?_ (by simp; omega)
          intro d hd'
          rcases List.mem_cons.mp hd' with e | e
          · rw [e]; exact ⟨hlt, .single hl0⟩
          · exact ⟨(hd d e).1, (hd d e).2.tail hl0⟩
        have hlen1 : n1.lookups.length = m.lookups.length := by rw [hcs.llen]; omega
        have hhl1 : n1.hybrids.length = m.hybrids.length := by rw [hcs.hlen]; omega
        generalize hW : (if m.lookups.length ≠ 0 then (serVars (st.ws.add [UInt8.ofNat id]) 0 n.vars m.vars).addLookup
            tLookup m.lookups.length else serVars (st.ws.add [UInt8.ofNat id]) 0 n.vars m.vars) = W
        obtain ⟨b1, st1, e1, x1, q1⟩ := fixLookups (rec := ser reg true fuel) (recF := ser reg false fuel)
          (List.mem_cons_self ..) hr ⟨n0, hA0, hid⟩ hm hlen1 hmeta1 hrec m.lookups 0
          { arena := st.arena.set ptr n1, ws := W, refs := st.refs } (by simp) (by simp) (hI1 W) hget1
        rw [e1]
        cases b1 with
        | false => exact ⟨false, st1, rfl, x1, by simp⟩
        | true =>
          simp only
          obtain ⟨s1, s2, ⟨w1, s3⟩, s4, s5, s6, s7⟩ := q1 rfl
          have hI2 : FixI root A0 (ptr :: deps) st1 := ⟨s1, s2, fun d hd => (s4 d hd).2⟩
          have hget2 : st1.arena[ptr]? = some n1 := by rw [(s4 ptr (List.mem_cons_self ..)).1]; exact hget1
          obtain ⟨b2, st2, e2, x2, q2⟩ := fixHybrids (rec := ser reg true fuel) (recF := ser reg false fuel)
            (List.mem_cons_self ..) hmeta1 hrec m.hybrids 0 st1 (by omega) hI2 hget2
          rw [e2]
          cases b2 with
          | false => exact ⟨false, st2, rfl, x2, by simp⟩
          | true =>
            simp only
            obtain ⟨t1, t2, ⟨w2, t3⟩, t4, t5, t6, t7⟩ := q2 rfl
            obtain ⟨u1, u2⟩ := t4 ptr (List.mem_cons_self ..)
            have hget3 : st2.arena[ptr]? = some n1 := by rw [u1]; exact hget2
            rw [emplace_none u2]
            refine ⟨true, _, rfl, x2, fun _ => ⟨t1, ?_, ?_, ?_, ?_, ?_, ?_⟩⟩
            · refine .cons t2 u2 ?_
              intro c hc
              rcases (linkND_iff hget3).mp hc with h | ⟨v, h⟩
              · obtain ⟨j, hj⟩ := List.getElem?_of_mem h
                obtain ⟨k, hk⟩ := s6 j c (Nat.zero_le _) hj
                exact ⟨k, (t5 c k hk).2⟩
              · obtain ⟨j, hj⟩ := List.getElem?_of_mem h
                exact t6 j c v (Nat.zero_le _) hj
            · exact ⟨(ptr, st2.refs.length % 65536) :: (w2 ++ w1), by simp only [t3, s3]; simp⟩
            · intro d hd'
              have hne : d ≠ ptr := by rintro rfl; exact hnm hd'
              have hm' : d ∈ ptr :: deps := List.mem_cons_of_mem _ hd'
              refine ⟨?_, ?_⟩
              · show st2.arena[d]? = _
                rw [(t4 d hm').1, (s4 d hm').1]
                exact hframe1 d hne
              · rw [lookup_cons, if_neg hne]
                exact (t4 d hm').2
            · intro p k hk
              have hne := hregne p k hk
              obtain ⟨a1, a2⟩ := s5 p k hk
              obtain ⟨a3, a4⟩ := t5 p k a2
              refine ⟨?_, ?_⟩
              · show st2.arena[p]? = _
                rw [a3, a1]; exact hframe1 p hne
              · rw [lookup_cons, if_neg hne]; exact a4
            · exact ⟨_, by rw [lookup_cons, if_pos rfl]⟩
            · intro B deps' hB
              have hBp : B[ptr]? = some n1 := by
                rw [hB ptr _ (by rw [lookup_cons, if_pos rfl])]; exact hget3
              have hB2 : Agree st2 B := by
                intro p k hk
                have hne : p ≠ ptr := by rintro rfl; rw [u2] at hk; simp at hk
                exact hB p k (by rw [lookup_cons, if_neg hne]; exact hk)
              have hB1 : Agree st1 B := by
                intro p k hk
                obtain ⟨a1, a2⟩ := t5 p k hk
                rw [hB2 p k a2, a1]
              rw [ser]
              simp only [hBp, Bool.false_eq_true, if_false, href]
              rw [show n1.md = some id by rw [hcs.md]; exact hidn]
              simp only [hm]
              rw [if_neg (by rw [hcs.vars, hcs.llen, hcs.hlen]; exact hsz), hcs.vars, hW, s7 B deps' hB1 hBp]
              simp only
              rw [t7 B deps' hB2 hBp]
              simp only [emplace_none u2]

end FastNoise.RT
