import Verif.EditorFit
import Verif.EditorFileSpec
/-! # What the editor writes: every node once, sources first -/
namespace FastNoise.Editor
open FastNoise.Ser FastNoise.Deser FastNoise.Stream FastNoise.Spec FastNoise.RT
open Relation

theorem eachDo_append {α σ : Type} (f : α → σ → Out σ) (xs ys : List α) (s : σ) : eachDo f (xs ++ ys) s = (eachDo f xs s).bind (eachDo f ys) := by
  induction xs generalizing s with
  | nil => rfl
  | cons x xs ih =>
    rw [List.cons_append, eachDo, eachDo]
    cases f x s with
    | ub => rfl
    | deep => rfl
    | ok a => exact ih a

/-- Nodes in the order they were written, newest first: none twice, sources before users. -/
inductive Chain (st : Ed) : List (Nat × Nat) → Prop
  | nil : Chain st []
  | cons {n qs} : Chain st qs → n ∈ st.nodes → n ∉ qs → (∀ c, LinkND st.arena n.1 c → ∃ i, (c, i) ∈ qs) → Chain st (n :: qs)

theorem Chain.sub {st : Ed} {qs} (h : Chain st qs) : ∀ n ∈ qs, n ∈ st.nodes := by
  induction h with
  | nil => intro n hn; cases hn
  | cons _ h1 _ _ ih =>
    intro n hn
    rcases List.mem_cons.mp hn with rfl | h'
    · exact h1
    · exact ih n h'

theorem Chain.nodup {st : Ed} {qs} (h : Chain st qs) : qs.Nodup := by
  induction h with
  | nil => exact List.nodup_nil
  | cons _ _ h2 _ ih => exact List.nodup_cons.mpr ⟨h2, ih⟩

theorem same_ptr {reg : Reg} {st : Ed} (h : Inv reg st) {p i j : Nat} (h1 : (p, i) ∈ st.nodes) (h2 : (p, j) ∈ st.nodes) : i = j := by
  have := List.inj_on_of_nodup_map h.pnd h1 h2 rfl
  simpa using this

theorem same_id {reg : Reg} {st : Ed} (h : Inv reg st) {p q i : Nat} (h1 : (p, i) ∈ st.nodes) (h2 : (q, i) ∈ st.nodes) : p = q := by
  have := List.inj_on_of_nodup_map h.idnd h1 h2 rfl
  simpa using this

/-- Whatever a written node leads to is written. -/
theorem Chain.closed {st : Ed} {qs} (h : Chain st qs) : ∀ n ∈ qs, ∀ c, LinkND st.arena n.1 c → ∃ i, (c, i) ∈ qs := by
  induction h with
  | nil => intro n hn; cases hn
  | cons _ _ _ h3 ih =>
    intro n hn c hc
    rcases List.mem_cons.mp hn with rfl | h'
    · obtain ⟨i, hi⟩ := h3 c hc; exact ⟨i, List.mem_cons_of_mem _ hi⟩
    · obtain ⟨i, hi⟩ := ih n h' c hc; exact ⟨i, List.mem_cons_of_mem _ hi⟩

theorem Chain.reach {st : Ed} {qs} (h : Chain st qs) {p c : Nat} (hp : ∃ i, (p, i) ∈ qs) (hr : Reach st.arena p c) : ∃ i, (c, i) ∈ qs := by
  induction hr with
  | refl => exact hp
  | tail _ hl ih => obtain ⟨i, hi⟩ := ih; exact h.closed _ hi _ hl

theorem find_of_ptr {reg : Reg} {st : Ed} (h : Inv reg st) {p id : Nat} (hm : (p, id) ∈ st.nodes) : (st.nodes.find? fun n => n.1 = p) = some (p, id) := by
  cases hf : st.nodes.find? (fun n => n.1 = p) with
  | none =>
    have := List.find?_eq_none.mp hf _ hm
    simp at this
  | some n =>
    obtain ⟨a, b⟩ := n
    have h1 := List.find?_some hf
    have h2 := List.mem_of_find?_eq_some hf
    simp at h1
    subst h1
    rw [same_ptr h h2 hm]

theorem mapM_some {α β : Type} {f : α → Option β} {g : α → β} : ∀ (l : List α), (∀ x ∈ l, f x = some (g x)) → l.mapM f = some (l.map g) := by
  intro l
  induction l with
  | nil => intro _; rfl
  | cons x xs ih =>
    intro h
    rw [List.mapM_cons, h x (List.mem_cons_self), ih (fun y hy => h y (List.mem_cons_of_mem _ hy))]
    rfl

/-- The id of a linked node, 0 for none. -/
def linkId (st : Ed) (l : Option Nat) : Nat := (idOrZero st.nodes l).getD 0

theorem linkId_of_mem {reg : Reg} {st : Ed} (h : Inv reg st) {p id : Nat} (hm : (p, id) ∈ st.nodes) : linkId st (some p) = id ∧ idOrZero st.nodes (some p) = some id := by
  have : idOrZero st.nodes (some p) = some id := by rw [idOrZero, find_of_ptr h hm]; rfl
  exact ⟨by rw [linkId, this]; rfl, this⟩

/-- The section of a node. -/
def sec (st : Ed) (grid : Grid) (n : Nat × Nat) : Section :=
  let nd := (st.arena[n.1]?).getD { md := none, vars := [], lookups := [], hybrids := [] }
  { type := nodeType
    name := "Node:".toList ++ printD (UInt32.ofNat (nd.md.getD 0))
    lines := nd.vars.map (fun v => "variable=".toList ++ printD v) ++ nd.lookups.map (fun l => "node=".toList ++ printD (UInt32.ofNat (linkId st l))) ++
      nd.hybrids.map (fun h => "hybrid=".toList ++ printD (UInt32.ofNat (linkId st h.1)) ++ ':' :: printF h.2) ++
      ["id=".toList ++ printD (UInt32.ofNat n.2), "grid_pos=".toList ++ printF (grid n.2).1 ++ ':' :: printF (grid n.2).2] }

theorem nodeSection_eq {reg : Reg} {st : Ed} (h : Inv reg st) (grid : Grid) {p id : Nat} (hm : (p, id) ∈ st.nodes) {nd : NodeData} (hn : st.arena[p]? = some nd) :
    nodeSection st.nodes grid nd id = some (sec st grid (p, id)) := by
  have hp : p ∈ ptrs st := List.mem_map.mpr ⟨_, hm, rfl⟩
  obtain ⟨mid, m, a1, _⟩ := shaped_of_live h.good hp hn
  have hid : ∀ c, NLink nd c → idOrZero st.nodes (some c) = some (linkId st (some c)) := by
    intro c hc
    obtain ⟨⟨c', i⟩, hi, e⟩ := List.mem_map.mp (closed_nd h hp hn hc)
    simp only at e; subst e
    obtain ⟨e1, e2⟩ := linkId_of_mem h hi
    rw [e2, e1]
  have l1 : nodeLines st.nodes nd.lookups = some (nd.lookups.map (fun l => "node=".toList ++ printD (UInt32.ofNat (linkId st l)))) := by
    refine mapM_some _ fun l hl => ?_
    cases l with
    | none => rfl
    | some c => rw [hid c (Or.inl hl)]; rfl
  have l2 : hybridLines st.nodes nd.hybrids = some (nd.hybrids.map (fun h => "hybrid=".toList ++ printD (UInt32.ofNat (linkId st h.1)) ++ ':' :: printF h.2)) := by
    refine mapM_some _ fun l hl => ?_
    obtain ⟨l, v⟩ := l
    cases l with
    | none => rfl
    | some c => rw [hid c (Or.inr ⟨v, hl⟩)]; rfl
  unfold nodeSection sec
  rw [a1, l1, l2]
  simp only [hn, Option.getD_some, a1]
  rfl

/-- The writer's state after these nodes. -/
def wst (st : Ed) (grid : Grid) (qs : List (Nat × Nat)) : WSt := (qs.reverse.map (sec st grid), qs.map (·.2))

theorem written_iff {reg : Reg} {st : Ed} (h : Inv reg st) {qs} (hq : Chain st qs) (grid : Grid) {p id : Nat} (hm : (p, id) ∈ st.nodes) : id ∈ (wst st grid qs).2 ↔ (p, id) ∈ qs := by
  unfold wst
  simp only
  constructor
  · intro hi
    obtain ⟨⟨q, j⟩, h1, e⟩ := List.mem_map.mp hi
    simp only at e; subst e
    rw [same_id h hm (hq.sub _ h1)]; exact h1
  · intro hi; exact List.mem_map.mpr ⟨_, hi, rfl⟩

theorem writeNode_spec {reg : Reg} {st : Ed} (h : Inv reg st) (grid : Grid) : ∀ (fuel p id : Nat) (vis : List Nat) (qs : List (Nat × Nat)),
    (p, id) ∈ st.nodes → (ptrs st).length < fuel + vis.length → vis.Nodup → (∀ v ∈ vis, v ∈ ptrs st) → (∀ v ∈ vis, TransGen (LinkND st.arena) v p) → Chain st qs →
    ∃ ext, writeNode st grid fuel p (wst st grid qs) = .ok (wst st grid (ext ++ qs)) ∧ Chain st (ext ++ qs) ∧ (p, id) ∈ ext ++ qs ∧ ∀ n ∈ ext, Reach st.arena p n.1 := by
  intro fuel
  induction fuel with
  | zero =>
    intro p id vis qs hm hlen hnd hv _ _
    exfalso
    have : vis.length ≤ (ptrs st).length := (List.subperm_of_subset hnd hv).length_le
    omega
  | succ f ih =>
    intro p id vis qs hm hlen hnd hv hr hq
    have hp : p ∈ ptrs st := List.mem_map.mpr ⟨_, hm, rfl⟩
    obtain ⟨nd, _, _, hn, _⟩ := h.good.live p hp
    have hpv : p ∉ vis := fun hc => h.loops p hp (hr p hc)
    rw [writeNode, find_of_ptr h hm, hn]
    simp only
    by_cases hin : id ∈ (wst st grid qs).2
    · rw [if_pos hin]
      exact ⟨[], rfl, hq, (written_iff h hq grid hm).mp hin, fun n hn => by cases hn⟩
    · rw [if_neg hin]
      have hloop : ∀ (ls : List (Option Nat)), (∀ l ∈ ls, l ∈ links nd) → ∀ qs, Chain st qs → ∃ ext,
          eachDo (ifLink (writeNode st grid f)) ls (wst st grid qs) = .ok (wst st grid (ext ++ qs)) ∧ Chain st (ext ++ qs) ∧
          (∀ c, some c ∈ ls → ∃ i, (c, i) ∈ ext ++ qs) ∧ ∀ n ∈ ext, TransGen (LinkND st.arena) p n.1 := by
        intro ls
        induction ls with
        | nil => intro _ qs hq; exact ⟨[], rfl, hq, fun c hc => by simp at hc, fun n hn => by cases hn⟩
        | cons l ls ihl =>
          intro hls qs hq
          have hrest := ihl (fun l hl => hls l (List.mem_cons_of_mem _ hl))
          cases l with
          | none =>
            obtain ⟨ext, e1, e2, e3, e4⟩ := hrest qs hq
            refine ⟨ext, ?_, e2, ?_, e4⟩
            · rw [eachDo]; exact e1
            · intro c hc
              rcases List.mem_cons.mp hc with h' | h'
              · cases h'
              · exact e3 c h'
          | some c =>
            have hl : LinkND st.arena p c := ⟨nd, hn, mem_links.mp (hls (some c) List.mem_cons_self)⟩
            obtain ⟨⟨c', j⟩, hj, e⟩ := List.mem_map.mp (h.good.closed p hp c hl)
            simp only at e; subst e
            obtain ⟨ext1, a1, a2, a3, a4⟩ := ih c' j (p :: vis) qs hj (by simp only [List.length_cons]; omega) (List.nodup_cons.mpr ⟨hpv, hnd⟩)
              (by intro v hv'; rcases List.mem_cons.mp hv' with rfl | h'; exacts [hp, hv v h'])
              (by
                intro v hv'
                rcases List.mem_cons.mp hv' with rfl | h'
                · exact .single hl
                · exact .tail (hr v h') hl) hq
            obtain ⟨ext2, b1, b2, b3, b4⟩ := hrest (ext1 ++ qs) a2
            refine ⟨ext2 ++ ext1, ?_, by rw [List.append_assoc]; exact b2, ?_, ?_⟩
            · rw [eachDo]; simp only [ifLink, a1, Out.bind]; rw [b1, List.append_assoc]
            · intro c hc
              rw [List.append_assoc]
              rcases List.mem_cons.mp hc with h' | h'
              · cases h'; exact ⟨j, List.mem_append_right _ a3⟩
              · exact b3 c h'
            · intro n hn'
              rcases List.mem_append.mp hn' with h' | h'
              · exact b4 n h'
              · exact TransGen.head' hl (a4 n h')
      obtain ⟨ext, e1, e2, e3, e4⟩ := hloop (links nd) (fun l hl => hl) qs hq
      rw [e1]
      simp only [Out.bind, nodeSection_eq h grid hm hn]
      have hnot : (p, id) ∉ ext ++ qs := by
        intro hc
        rcases List.mem_append.mp hc with h' | h'
        · exact h.loops p hp (e4 _ h')
        · exact hin ((written_iff h hq grid hm).mpr h')
      refine ⟨(p, id) :: ext, ?_, ?_, by simp, ?_⟩
      · simp [wst]
      · rw [List.cons_append]
        refine Chain.cons e2 hm hnot fun c hc => e3 c (mem_links.mpr ?_)
        exact (linkND_iff hn).mp hc
      · intro n hn'
        rcases List.mem_cons.mp hn' with rfl | h'
        · exact .refl
        · exact (e4 n h').to_reflTransGen

theorem isRoot_iff {reg : Reg} {st : Ed} (h : Inv reg st) {p : Nat} : isRoot st p = true ↔ ∀ q, ¬ LinkND st.arena q p := by
  unfold isRoot
  rw [List.all_eq_true]
  constructor
  · rintro ha q ⟨nd, hn, hl⟩
    have hq : q ∈ ptrs st := by
      by_contra hc
      exact h.good.quiet q hc p ⟨nd, hn, hl⟩
    obtain ⟨⟨q', i⟩, hi, e⟩ := List.mem_map.mp hq
    simp only at e; subst e
    have := ha _ hi
    simp only [hn] at this
    exact (of_decide_eq_true this) (mem_links.mpr hl)
  · intro ha n hn
    cases hx : st.arena[n.1]? with
    | none => rfl
    | some nd => exact decide_eq_true fun hc => ha n.1 ⟨nd, hx, mem_links.mp hc⟩

/-- Every node is reached from a root. -/
theorem exists_root {reg : Reg} {st : Ed} (h : Inv reg st) : ∀ (k p : Nat) (vis : List Nat), p ∈ ptrs st → (ptrs st).length < k + vis.length → vis.Nodup → (∀ v ∈ vis, v ∈ ptrs st) →
    (∀ v ∈ vis, TransGen (LinkND st.arena) p v) → ∃ r ∈ ptrs st, isRoot st r = true ∧ Reach st.arena r p := by
  intro k
  induction k with
  | zero =>
    intro p vis _ hlen hnd hv _
    have : vis.length ≤ (ptrs st).length := (List.subperm_of_subset hnd hv).length_le
    omega
  | succ k ih =>
    intro p vis hp hlen hnd hv hr
    by_cases hroot : isRoot st p = true
    · exact ⟨p, hp, hroot, .refl⟩
    · rw [isRoot_iff h] at hroot
      push Not at hroot
      obtain ⟨q, hl⟩ := hroot
      have hq : q ∈ ptrs st := by
        by_contra hc
        exact h.good.quiet q hc p hl
      have hpv : p ∉ vis := fun hc => h.loops p hp (hr p hc)
      obtain ⟨r, r1, r2, r3⟩ := ih q (p :: vis) hq (by simp only [List.length_cons]; omega) (List.nodup_cons.mpr ⟨hpv, hnd⟩)
        (by intro v hv'; rcases List.mem_cons.mp hv' with rfl | h'; exacts [hp, hv v h'])
        (by
          intro v hv'
          rcases List.mem_cons.mp hv' with rfl | h'
          · exact .single hl
          · exact .head hl (hr v h'))
      exact ⟨r, r1, r2, .tail r3 hl⟩

/-- Everything is written, once, sources first. -/
theorem writeNodes_spec {reg : Reg} {st : Ed} (h : Inv reg st) (grid : Grid) {ρ} (hρ : IsOrder ρ) {fuel : Nat} (hf : st.nodes.length < fuel) :
    ∃ qs, writeNodes ρ fuel st grid = .ok (wst st grid qs) ∧ Chain st qs ∧ ∀ n, n ∈ qs ↔ n ∈ st.nodes := by
  have hloop : ∀ (l : List (Nat × Nat)), (∀ n ∈ l, n ∈ st.nodes) → ∀ qs, Chain st qs → ∃ ext,
      eachDo (fun n w => if isRoot st n.1 then writeNode st grid fuel n.1 w else .ok w) l (wst st grid qs) = .ok (wst st grid (ext ++ qs)) ∧ Chain st (ext ++ qs) ∧
      ∀ n ∈ l, isRoot st n.1 = true → n ∈ ext ++ qs := by
    intro l
    induction l with
    | nil => intro _ qs hq; exact ⟨[], rfl, hq, fun n hn => by cases hn⟩
    | cons n l ih =>
      intro hl qs hq
      have hrest := ih (fun n hn => hl n (List.mem_cons_of_mem _ hn))
      rw [eachDo]
      by_cases hr : isRoot st n.1 = true
      · obtain ⟨p, i⟩ := n
        obtain ⟨ext1, a1, a2, a3, _⟩ := writeNode_spec h grid fuel p i [] qs (hl _ List.mem_cons_self) (by simpa using hf) List.nodup_nil (by simp) (by simp) hq
        obtain ⟨ext2, b1, b2, b3⟩ := hrest (ext1 ++ qs) a2
        refine ⟨ext2 ++ ext1, ?_, by rw [List.append_assoc]; exact b2, ?_⟩
        · rw [if_pos hr, a1]; simp only [Out.bind]; rw [b1, List.append_assoc]
        · intro m hm hmr
          rw [List.append_assoc]
          rcases List.mem_cons.mp hm with rfl | h'
          · exact List.mem_append_right _ a3
          · exact b3 m h' hmr
      · obtain ⟨ext2, b1, b2, b3⟩ := hrest qs hq
        refine ⟨ext2, ?_, b2, ?_⟩
        · rw [if_neg hr]; exact b1
        · intro m hm hmr
          rcases List.mem_cons.mp hm with rfl | h'
          · exact absurd hmr hr
          · exact b3 m h' hmr
  obtain ⟨ext, e1, e2, e3⟩ := hloop (ρ st.nodes) (fun n hn => (hρ _).mem_iff.mp hn) [] Chain.nil
  rw [List.append_nil] at e1 e2 e3
  refine ⟨ext, e1, e2, fun n => ⟨e2.sub n, fun hn => ?_⟩⟩
  obtain ⟨p, i⟩ := n
  obtain ⟨r, r1, r2, r3⟩ := exists_root h ((ptrs st).length + 1) p [] (List.mem_map.mpr ⟨_, hn, rfl⟩) (by simp) List.nodup_nil (by simp) (by simp)
  obtain ⟨⟨r', j⟩, hj, e⟩ := List.mem_map.mp r1
  simp only at e; subst e
  obtain ⟨k, hk⟩ := e2.reach ⟨j, e3 _ ((hρ _).mem_iff.mpr hj) r2⟩ r3
  rw [same_ptr h hn (e2.sub _ hk)]; exact hk

end FastNoise.Editor
