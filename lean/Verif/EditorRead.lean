import Verif.EditorWrite
import Verif.EditorText
/-! # What the editor reads back -/
namespace FastNoise.Editor
open FastNoise.Ser FastNoise.Deser FastNoise.Stream FastNoise.Spec FastNoise.RT
open Relation

/-- A node as it is read back into an editor with these nodes. -/
def copyNode (st : Ed) (nodes : List (Nat × Nat)) (nd : NodeData) : NodeData :=
  { md := nd.md
    vars := nd.vars
    lookups := nd.lookups.map fun l => findNode nodes (linkId st l)
    hybrids := nd.hybrids.map fun h => (findNode nodes (linkId st h.1), reloadF h.2) }

/-- The node data at `p`. -/
def ndAt (st : Ed) (p : Nat) : NodeData := (st.arena[p]?).getD { md := none, vars := [], lookups := [], hybrids := [] }

/-- The editor after the sections of these nodes (newest first) were read. -/
def back (st : Ed) : List (Nat × Nat) → Ed
  | [] => init
  | n :: qs => { back st qs with arena := (back st qs).arena ++ [copyNode st (back st qs).nodes (ndAt st n.1)], nodes := ((back st qs).arena.length, n.2) :: (back st qs).nodes }

theorem back_length (st : Ed) (qs : List (Nat × Nat)) : (back st qs).arena.length = qs.length := by
  induction qs with
  | nil => rfl
  | cons n qs ih => simp [back, ih]

theorem back_ids (st : Ed) (qs : List (Nat × Nat)) : (back st qs).nodes.map (·.2) = qs.map (·.2) := by
  induction qs with
  | nil => rfl
  | cons n qs ih => simp [back, ih]

theorem mem_back {st : Ed} {qs : List (Nat × Nat)} {id : Nat} : (∃ p', (p', id) ∈ (back st qs).nodes) ↔ ∃ p, (p, id) ∈ qs := by
  have h := back_ids st qs
  constructor
  · rintro ⟨p', hp⟩
    have : id ∈ qs.map (·.2) := by rw [← h]; exact List.mem_map.mpr ⟨_, hp, rfl⟩
    obtain ⟨⟨a, b⟩, h1, e⟩ := List.mem_map.mp this
    simp only at e; subst e; exact ⟨a, h1⟩
  · rintro ⟨p, hp⟩
    have : id ∈ (back st qs).nodes.map (·.2) := by rw [h]; exact List.mem_map.mpr ⟨_, hp, rfl⟩
    obtain ⟨⟨a, b⟩, h1, e⟩ := List.mem_map.mp this
    simp only at e; subst e; exact ⟨a, h1⟩

/-! ## The invariant of the editor read so far -/

theorem link_snoc {A : Arena} {nd : NodeData} {q c : Nat} : LinkND (A ++ [nd]) q c ↔ (q < A.length ∧ LinkND A q c) ∨ (q = A.length ∧ NLink nd c) := by
  unfold LinkND
  rcases Nat.lt_trichotomy q A.length with h | h | h
  · rw [List.getElem?_append_left h]; simp [h, h.ne]
  · subst h; simp [NLink]
  · rw [List.getElem?_eq_none (by simp; omega)]; simp; constructor
    · intro h'; omega
    · intro h'; omega

theorem inv_snoc {reg : Reg} {st : Ed} (h : Inv reg st) {nd : NodeData} (hs : Shaped reg nd) (hl : ∀ c, NLink nd c → c ∈ ptrs st) {id : Nat} (hid : 1 ≤ id ∧ id ≤ maxId)
    (hn : id ∉ ids st) : Inv reg { st with arena := st.arena ++ [nd], nodes := (st.arena.length, id) :: st.nodes } := by
  have hlt : ∀ p ∈ ptrs st, p < st.arena.length := fun p hp => h.good.lt hp
  have hne : ∀ p ∈ ptrs st, p ≠ st.arena.length := fun p hp => (hlt p hp).ne
  have hnew : st.arena.length ∉ ptrs st := fun hc => hne _ hc rfl
  have hno : ∀ q c, LinkND (st.arena ++ [nd]) q c → c ∈ ptrs st := by
    intro q c hc
    rcases link_snoc.mp hc with ⟨_, h1⟩ | ⟨_, h1⟩
    · by_cases hq : q ∈ ptrs st
      · exact h.good.closed q hq c h1
      · exact absurd h1 (h.good.quiet q hq c)
    · exact hl c h1
  constructor
  · constructor
    · intro p hp
      rcases List.mem_cons.mp hp with rfl | hp
      · obtain ⟨i, m, b⟩ := hs
        exact ⟨nd, i, m, by simp, b⟩
      · obtain ⟨n, i, m, b, b'⟩ := h.good.live p hp
        refine ⟨n, i, m, ?_, b'⟩
        simp only
        rw [List.getElem?_append_left (hlt p hp)]; exact b
    · intro p _ c hc
      exact List.mem_cons_of_mem _ (hno p c hc)
    · intro p hp c hc
      rcases link_snoc.mp hc with ⟨_, h1⟩ | ⟨h1, _⟩
      · exact h.good.quiet p (fun hc => hp (List.mem_cons_of_mem _ hc)) c h1
      · subst h1; exact hp List.mem_cons_self
  · have key : ∀ a b, TransGen (LinkND (st.arena ++ [nd])) a b → a ∈ ptrs st → TransGen (LinkND st.arena) a b := by
      intro a b hab
      induction hab with
      | single hl1 =>
        intro ha
        rcases link_snoc.mp hl1 with ⟨_, h1⟩ | ⟨h1, _⟩
        · exact .single h1
        · exact absurd h1 (hne _ ha)
      | @tail b c hab hl1 ih =>
        intro ha
        have hb : b ∈ ptrs st := by
          rcases TransGen.tail'_iff.mp hab with ⟨c, _, h2⟩
          exact hno _ _ h2
        rcases link_snoc.mp hl1 with ⟨_, h1⟩ | ⟨h1, _⟩
        · exact .tail (ih ha) h1
        · exact absurd h1 (hne _ hb)
    intro q hq hc
    have hq' : q ∈ ptrs st := by
      rcases TransGen.tail'_iff.mp hc with ⟨c, _, h2⟩
      exact hno _ _ h2
    exact h.loops q hq' (key q q hc hq')
  · intro p hp; exact hp
  · exact List.nodup_cons.mpr ⟨hnew, h.pnd⟩
  · exact List.nodup_cons.mpr ⟨hn, h.idnd⟩
  · intro i hi
    rcases List.mem_cons.mp hi with rfl | hi
    · exact hid
    · exact h.idr i hi
  · exact h.ctr

theorem find_zero {reg : Reg} {st : Ed} (h : Inv reg st) : findNode st.nodes 0 = none := by
  cases hf : findNode st.nodes 0 with
  | none => rfl
  | some p =>
    have := (h.idr 0 (List.mem_map.mpr ⟨_, find_mem hf, rfl⟩)).1
    omega

theorem SameLink.mono {n1 n1' n2 n2' : List (Nat × Nat)} (h1 : ∀ x ∈ n1, x ∈ n1') (h2 : ∀ x ∈ n2, x ∈ n2') {l l' : Option Nat} (h : SameLink n1 n2 l l') : SameLink n1' n2' l l' := by
  cases l <;> cases l' <;> simp only [SameLink] at h ⊢
  obtain ⟨i, a, b⟩ := h
  exact ⟨i, h1 _ a, h2 _ b⟩

theorem SameNode.mono {rel} {n1 n1' n2 n2' : List (Nat × Nat)} (h1 : ∀ x ∈ n1, x ∈ n1') (h2 : ∀ x ∈ n2, x ∈ n2') {nd nd' : NodeData} (h : SameNode rel n1 n2 nd nd') :
    SameNode rel n1' n2' nd nd' :=
  ⟨h.type, h.vars, h.lookups.imp fun _ _ => SameLink.mono h1 h2, h.hybrids.imp fun _ _ a => ⟨a.1.mono h1 h2, a.2⟩⟩

/-- A node read back into an editor that has all its sources. -/
theorem copy_same {reg : Reg} {st st' : Ed} (h : Inv reg st) (h' : Inv reg st') {nd : NodeData} (hl : ∀ c, NLink nd c → ∃ i c', (c, i) ∈ st.nodes ∧ (c', i) ∈ st'.nodes) :
    SameNode (fun v v' => v' = reloadF v) st.nodes st'.nodes nd (copyNode st st'.nodes nd) := by
  have hlink : ∀ l : Option Nat, (∀ c, l = some c → NLink nd c) → SameLink st.nodes st'.nodes l (findNode st'.nodes (linkId st l)) := by
    intro l hc
    cases l with
    | none => rw [show linkId st none = 0 from rfl, find_zero h']; trivial
    | some c =>
      obtain ⟨i, c', a, b⟩ := hl c (hc c rfl)
      rw [(linkId_of_mem h a).1, find_of_mem h' b]
      exact ⟨i, a, b⟩
  refine ⟨rfl, rfl, ?_, ?_⟩
  · rw [copyNode, List.forall₂_map_right_iff]
    refine List.forall₂_same.mpr fun l hm => hlink l fun c e => Or.inl (e ▸ hm)
  · rw [copyNode, List.forall₂_map_right_iff]
    refine List.forall₂_same.mpr fun x hm => ⟨hlink x.1 fun c e => Or.inr ⟨x.2, ?_⟩, rfl⟩
    rw [← e]; exact hm

theorem ndAt_eq {st : Ed} {p : Nat} {nd : NodeData} (h : st.arena[p]? = some nd) : ndAt st p = nd := by rw [ndAt, h]; rfl

theorem copy_links {st : Ed} {nodes : List (Nat × Nat)} {nd : NodeData} {c : Nat} (h : NLink (copyNode st nodes nd) c) : c ∈ nodes.map (·.1) := by
  have key : ∀ i, findNode nodes i = some c → c ∈ nodes.map (·.1) := fun i hi => List.mem_map.mpr ⟨_, find_mem hi, rfl⟩
  rcases h with h | ⟨v, h⟩
  · obtain ⟨l, _, e⟩ := List.mem_map.mp h
    exact key _ e
  · obtain ⟨x, _, e⟩ := List.mem_map.mp h
    exact key _ (congrArg Prod.fst e)

theorem copy_shaped {reg : Reg} {st : Ed} {nodes : List (Nat × Nat)} {nd : NodeData} (h : Shaped reg nd) : Shaped reg (copyNode st nodes nd) := by
  obtain ⟨id, m, a1, a2, a3, a4, a5⟩ := h
  exact ⟨id, m, a1, a2, a3, by simpa [copyNode] using a4, by simpa [copyNode] using a5⟩

/-- Everything about the editor read so far. -/
structure BackOk (reg : Reg) (st : Ed) (qs : List (Nat × Nat)) : Prop where
  inv : Inv reg (back st qs)
  fit : AllFit reg (back st qs)
  same : ∀ p i, (p, i) ∈ qs → ∃ p' nd nd', (p', i) ∈ (back st qs).nodes ∧ st.arena[p]? = some nd ∧ (back st qs).arena[p']? = some nd' ∧
    SameNode (fun v v' => v' = reloadF v) st.nodes (back st qs).nodes nd nd'

theorem forall₂_get {α β : Type} {R : α → β → Prop} {l : List α} {l' : List β} (h : List.Forall₂ R l l') {i : Nat} {y : β} (hy : l'[i]? = some y) : ∃ x, l[i]? = some x ∧ R x y := by
  induction h generalizing i with
  | nil => simp at hy
  | cons h1 _ ih =>
    cases i with
    | zero => simp at hy; subst hy; exact ⟨_, rfl, h1⟩
    | succ i => simpa using ih (by simpa using hy)

theorem back_ok {reg : Reg} {st : Ed} (h : Inv reg st) (hfit : AllFit reg st) {qs : List (Nat × Nat)} (hq : Chain st qs) : BackOk reg st qs := by
  induction hq with
  | nil =>
    refine ⟨inv_init reg, ?_, fun p i hc => by cases hc⟩
    intro q hq; simp [ptrs, back, init] at hq
  | @cons n qs hc hn hnot hcl ih =>
    obtain ⟨p, id⟩ := n
    have hp : p ∈ ptrs st := List.mem_map.mpr ⟨_, hn, rfl⟩
    obtain ⟨nd, _, _, hnd, _⟩ := h.good.live p hp
    have hsh := shaped_of_live h.good hp hnd
    have hat : ndAt st p = nd := ndAt_eq hnd
    have hnid : id ∉ ids (back st qs) := by
      intro hi
      rw [ids, back_ids] at hi
      obtain ⟨⟨q, j⟩, h1, e⟩ := List.mem_map.mp hi
      simp only at e; subst e
      rw [same_id h hn (hc.sub _ h1)] at hnot
      exact hnot h1
    have hinv := inv_snoc ih.inv (nd := copyNode st (back st qs).nodes nd) (copy_shaped hsh) (fun c hc => copy_links hc)
      (h.idr id (List.mem_map.mpr ⟨_, hn, rfl⟩)) hnid
    have hinv' : Inv reg (back st ((p, id) :: qs)) := by rw [back]; simp only [hat]; exact hinv
    have hsame : SameNode (fun v v' => v' = reloadF v) st.nodes (back st qs).nodes nd (copyNode st (back st qs).nodes nd) := by
      refine copy_same h ih.inv fun c hl => ?_
      obtain ⟨i, hi⟩ := hcl c ⟨nd, hnd, hl⟩
      obtain ⟨c', _, _, a, _⟩ := ih.same c i hi
      exact ⟨i, c', hc.sub _ hi, a⟩
    have hmono : ∀ x ∈ (back st qs).nodes, x ∈ (back st ((p, id) :: qs)).nodes := fun x hx => List.mem_cons_of_mem _ hx
    have hold : ∀ (q : Nat) (x : NodeData), (back st qs).arena[q]? = some x → (back st ((p, id) :: qs)).arena[q]? = some x := by
      intro q x hx
      rw [back]; simp only
      rw [List.getElem?_append_left (List.getElem?_eq_some_iff.mp hx).1]; exact hx
    have hnewnode : (back st ((p, id) :: qs)).arena[(back st qs).arena.length]? = some (copyNode st (back st qs).nodes nd) := by
      rw [back]; simp only [hat]; simp
    refine ⟨hinv', ?_, ?_⟩
    · intro q hq
      rw [ptrs, back, List.map_cons] at hq
      rcases List.mem_cons.mp hq with rfl | hq
      · intro i c nd1 nc i1 cid m mc h1 h2 h3 h4 h5 h6 h7 h8
        simp only at h1
        rw [hnewnode] at h1; cases h1
        obtain ⟨l, g1, g2⟩ := forall₂_get hsame.lookups h5
        cases l with
        | none => simp [SameLink] at g2
        | some c0 =>
          obtain ⟨k, g3, g4⟩ := g2
          have hck : (c0, k) ∈ qs := by
            obtain ⟨k', hk'⟩ := hcl c0 ⟨nd, hnd, Or.inl (List.mem_of_getElem? g1)⟩
            rw [same_ptr h g3 (hc.sub _ hk')]; exact hk'
          obtain ⟨c', nc0, nc', e1, e2, e3, e4⟩ := ih.same c0 k hck
          have : c' = c := same_id ih.inv e1 g4
          subst this
          have e5 := hold _ _ e3
          rw [h6] at e5; cases e5
          exact hfit p hp i c0 nd nc0 i1 cid m mc hnd h2 h3 h4 g1 e2 (by rw [← e4.type]; exact h7) h8
      · have hq' : q ∈ ptrs (back st qs) := hq
        intro i c nd1 nc i1 cid m mc h1 h2 h3 h4 h5 h6 h7 h8
        have hql := ih.inv.good.lt hq'
        have h1' : (back st qs).arena[q]? = some nd1 := by
          rw [back] at h1; simp only at h1
          rw [List.getElem?_append_left hql] at h1; exact h1
        have hcl : c < (back st qs).arena.length := ih.inv.good.lt (ih.inv.good.closed q hq' c ⟨nd1, h1', Or.inl (List.mem_of_getElem? h5)⟩)
        have h6' : (back st qs).arena[c]? = some nc := by
          rw [back] at h6; simp only at h6
          rw [List.getElem?_append_left hcl] at h6; exact h6
        exact ih.fit q hq' i c nd1 nc i1 cid m mc h1' h2 h3 h4 h5 h6' h7 h8
    · intro q i hqi
      rcases List.mem_cons.mp hqi with e | hqi
      · cases e
        exact ⟨_, nd, _, List.mem_cons_self, hnd, hnewnode, hsame.mono (fun x hx => hx) hmono⟩
      · obtain ⟨p', nd1, nd1', a1, a2, a3, a4⟩ := ih.same q i hqi
        exact ⟨p', nd1, nd1', hmono _ a1, a2, hold _ _ a3, a4.mono (fun x hx => hx) hmono⟩

end FastNoise.Editor
