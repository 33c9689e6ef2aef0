import Verif.EditorLemmas
import Verif.DeserProps
import Mathlib.Data.List.Nodup
/-! # The editor graph invariant, operation by operation -/
namespace FastNoise.Editor
open FastNoise.Ser FastNoise.Deser FastNoise.Stream FastNoise.Spec FastNoise.RT
open Relation

/-- Exactly the nodes of `L` are alive in `A`, well formed and linked among themselves. -/
structure Good (reg : Reg) (L : List Nat) (A : Arena) : Prop where
  live : ∀ p ∈ L, ∃ nd id m, A[p]? = some nd ∧ nd.md = some id ∧ reg[id]? = some m ∧ nd.vars.length = m.vars.length ∧
    nd.lookups.length = m.lookups.length ∧ nd.hybrids.length = m.hybrids.length
  closed : ∀ p ∈ L, ∀ c, LinkND A p c → c ∈ L
  quiet : ∀ p, p ∉ L → ∀ c, ¬ LinkND A p c

def NoLoops (L : List Nat) (A : Arena) : Prop := ∀ q ∈ L, ¬ TransGen (LinkND A) q q

theorem Good.congr {reg L L' A} (h : Good reg L A) (e : ∀ p, p ∈ L ↔ p ∈ L') : Good reg L' A :=
  ⟨fun p hp => h.live p ((e p).mpr hp), fun p hp c hc => (e c).mp (h.closed p ((e p).mpr hp) c hc), fun p hp => h.quiet p (fun h' => hp ((e p).mp h'))⟩

theorem Good.less {reg L A B} (h : Good reg L A) (hl : Less A B) : Good reg L B where
  live p hp := by
    obtain ⟨nd, id, m, a1, a2, a3, a4, a5, a6⟩ := h.live p hp
    obtain ⟨n, hn, hs⟩ := hl.get a1
    exact ⟨n, id, m, hn, by rw [hs.md]; exact a2, a3, by rw [hs.vars]; exact a4, by rw [hs.llen]; exact a5, by rw [hs.hlen]; exact a6⟩
  closed p hp c hc := h.closed p hp c (hl.link hc)
  quiet p hp c hc := h.quiet p hp c (hl.link hc)

theorem NoLoops.less {L A B} (h : NoLoops L A) (hl : Less A B) : NoLoops L B := fun q hq hc => h q hq (hl.trans_gen hc)

theorem Good.reach {reg L A} (h : Good reg L A) {p q : Nat} (hp : p ∈ L) (hr : Reach A p q) : q ∈ L := by
  induction hr with
  | refl => exact hp
  | tail _ hl ih => exact h.closed _ ih _ hl

theorem Good.hasMeta {reg L A} (h : Good reg L A) {p : Nat} (hp : p ∈ L) : HasMetadata reg A p := by
  intro q hq
  obtain ⟨nd, id, m, a1, a2, a3, _⟩ := h.live q (h.reach hp hq)
  exact ⟨nd, id, m, a1, a2, a3⟩

theorem Good.mem_of_reach {reg L A} (h : Good reg L A) {d p : Nat} (hp : p ∈ L) (hr : Reach A d p) : d ∈ L := by
  rcases ReflTransGen.cases_head hr with rfl | ⟨c, hc, _⟩
  · exact hp
  · by_contra hd; exact h.quiet d hd c hc

theorem Good.safe {reg L A} (h : Good reg L A) {p : Nat} (hp : p ∈ L) : Safe reg A p := fun _ hd => h.hasMeta (h.mem_of_reach hp hd)

theorem Good.lt {reg L A} (h : Good reg L A) {p : Nat} (hp : p ∈ L) : p < A.length := by
  obtain ⟨nd, _, _, a1, _⟩ := h.live p hp
  exact (List.getElem?_eq_some_iff.mp a1).1

/-- A node of metadata's shape. -/
def Shaped (reg : Reg) (nd : NodeData) : Prop := ∃ id m, nd.md = some id ∧ reg[id]? = some m ∧ nd.vars.length = m.vars.length ∧
    nd.lookups.length = m.lookups.length ∧ nd.hybrids.length = m.hybrids.length

theorem link_set {A : Arena} {p : Nat} {nd' : NodeData} (hp : p < A.length) {q c : Nat} : LinkND (A.set p nd') q c ↔ (q = p ∧ NLink nd' c) ∨ (q ≠ p ∧ LinkND A q c) := by
  unfold LinkND
  by_cases e : q = p
  · subst e; simp [hp, NLink]
  · rw [List.getElem?_set_ne (Ne.symm e)]; simp [e]

theorem Good.set {reg L A} (h : Good reg L A) {p : Nat} (hp : p ∈ L) {nd' : NodeData} (hs : Shaped reg nd') (hl : ∀ c, NLink nd' c → c ∈ L) : Good reg L (A.set p nd') where
  live q hq := by
    by_cases e : q = p
    · subst e
      obtain ⟨id, m, b⟩ := hs
      exact ⟨nd', id, m, by simp [h.lt hp], b⟩
    · rw [List.getElem?_set_ne (Ne.symm e)]; exact h.live q hq
  closed q hq c hc := by
    rcases (link_set (h.lt hp)).mp hc with ⟨_, h1⟩ | ⟨_, h1⟩
    · exact hl c h1
    · exact h.closed q hq c h1
  quiet q hq c hc := by
    rcases (link_set (h.lt hp)).mp hc with ⟨rfl, _⟩ | ⟨_, h1⟩
    · exact hq hp
    · exact h.quiet q hq c h1

/-- A path either avoids `p`'s links or passes `p`. -/
theorem trans_set {A B : Arena} {p : Nat} (h : ∀ q c, LinkND B q c → q ≠ p → LinkND A q c) {a b : Nat} (ht : TransGen (LinkND B) a b) :
    TransGen (LinkND A) a b ∨ (ReflTransGen (LinkND B) a p ∧ TransGen (LinkND B) p b) := by
  induction ht with
  | single hl =>
    by_cases e : a = p
    · subst e; exact Or.inr ⟨.refl, .single hl⟩
    · exact Or.inl (.single (h _ _ hl e))
  | tail h1 hl ih =>
    rename_i b c
    by_cases e : b = p
    · subst e; exact Or.inr ⟨h1.to_reflTransGen, .single hl⟩
    · rcases ih with ih | ⟨i1, i2⟩
      · exact Or.inl (ih.tail (h _ _ hl e))
      · exact Or.inr ⟨i1, i2.tail hl⟩

theorem noLoops_edit {L A} {A' : Arena} {p : Nat} {nd' : NodeData} (hp : p < A.length) (h : NoLoops L A) (hA : Less (A.set p nd') A')
    (hnc : ¬ TransGen (LinkND A') p p) : NoLoops L A' := by
  intro q hq hc
  rcases trans_set (A := A) (p := p) (fun a c hl hne => by
    rcases (link_set hp).mp (hA.link hl) with ⟨e, _⟩ | ⟨_, h1⟩
    · exact absurd e hne
    · exact h1) hc with h1 | ⟨h1, h2⟩
  · exact h q hq h1
  · exact hnc (h2.trans_left h1)

/-! ## The state invariant -/

abbrev ptrs (st : Ed) : List Nat := st.nodes.map (·.1)
abbrev ids (st : Ed) : List Nat := st.nodes.map (·.2)

/-- The graph is sound, where `L` are the nodes that exist, in `mNodes` or about to be put there. -/
structure Pre (reg : Reg) (L : List Nat) (st : Ed) : Prop where
  good : Good reg L st.arena
  loops : NoLoops L st.arena
  sub : ∀ p ∈ ptrs st, p ∈ L
  pnd : (ptrs st).Nodup
  idnd : (ids st).Nodup
  idr : ∀ i ∈ ids st, 1 ≤ i ∧ i ≤ maxId
  ctr : st.counter ≤ maxId

def Inv (reg : Reg) (st : Ed) : Prop := Pre reg (ptrs st) st

/-- The iteration order of the hash table is some order. -/
def IsOrder (ρ : List (Nat × Nat) → List (Nat × Nat)) : Prop := ∀ l, (ρ l).Perm l

theorem mem_order {ρ} (hρ : IsOrder ρ) {l : List (Nat × Nat)} {p : Nat} : p ∈ (ρ l).map (·.1) ↔ p ∈ l.map (·.1) := by
  simp only [List.mem_map]
  constructor
  · rintro ⟨a, h, e⟩; exact ⟨a, (hρ l).mem_iff.mp h, e⟩
  · rintro ⟨a, h, e⟩; exact ⟨a, (hρ l).mem_iff.mpr h, e⟩

theorem find_mem {nodes : List (Nat × Nat)} {id p : Nat} (h : findNode nodes id = some p) : (p, id) ∈ nodes := by
  unfold findNode at h
  rw [Option.map_eq_some_iff] at h
  obtain ⟨⟨a, b⟩, h1, h2⟩ := h
  have := List.find?_some h1
  simp at this h2
  subst this; subst h2
  exact List.mem_of_find?_eq_some h1

theorem find_ptr {st : Ed} {id p : Nat} (h : findNode st.nodes id = some p) : p ∈ ptrs st := List.mem_map.mpr ⟨_, find_mem h, rfl⟩

theorem find_of_mem {reg : Reg} {st : Ed} (h : Inv reg st) {p id : Nat} (hm : (p, id) ∈ st.nodes) : findNode st.nodes id = some p := by
  unfold findNode
  cases hf : st.nodes.find? (fun n => n.2 = id) with
  | none =>
    have := List.find?_eq_none.mp hf _ hm
    simp at this
  | some n =>
    have h1 := List.find?_some hf
    simp at h1
    have := List.inj_on_of_nodup_map h.idnd (List.mem_of_find?_eq_some hf) hm h1
    rw [this]; rfl

/-! ### Adding -/

theorem addData_ok {reg ρ fuel L} {st st' : Ed} {p : Nat} (h : Pre reg L st) (hp : p ∈ L) (hn : p ∉ ptrs st)
    (e : addData reg ρ fuel st p = .ok st') : Pre reg L st' ∧ ptrs st' = p :: ptrs st ∧ st'.dropped = st.dropped ∧ Less st.arena st'.arena := by
  unfold addData at e
  cases hf : freeId (st.nodes.map (·.2)) fuel st.counter with
  | none => rw [hf] at e; cases e
  | some id =>
    rw [hf] at e
    simp only at e
    cases hv : preview reg ((ρ st.nodes).map (·.1)) fuel p st.arena with
    | ub => rw [hv] at e; cases e
    | deep => rw [hv] at e; cases e
    | ok A =>
      rw [hv] at e
      simp only [Out.bind] at e
      cases e
      have hl := preview_less _ _ _ _ hv
      obtain ⟨f1, f2⟩ := freeId_spec _ _ _ h.ctr _ hf
      refine ⟨⟨h.good.less hl, h.loops.less hl, ?_, ?_, ?_, ?_, f2.2⟩, rfl, rfl, hl⟩
      · intro q hq
        rcases List.mem_cons.mp hq with rfl | hq
        · exact hp
        · exact h.sub q hq
      · exact List.nodup_cons.mpr ⟨hn, h.pnd⟩
      · exact List.nodup_cons.mpr ⟨f1, h.idnd⟩
      · intro i hi
        rcases List.mem_cons.mp hi with rfl | hi
        · exact f2
        · exact h.idr i hi

theorem addData_safe {reg ρ fuel L} {st : Ed} {p : Nat} (hρ : IsOrder ρ) (h : Pre reg L st) (hp : p ∈ L) : addData reg ρ fuel st p ≠ .ub := by
  unfold addData
  split
  · intro h; cases h
  · have := preview_safe (order := (ρ st.nodes).map (·.1)) fuel p st.arena (h.good.safe hp) (fun q hq => h.good.lt (h.sub q ((mem_order hρ).mp hq)))
    cases hv : preview reg ((ρ st.nodes).map (·.1)) fuel p st.arena with
    | ub => exact absurd hv this
    | deep => intro h; cases h
    | ok A => intro h; cases h

theorem exists_free {l : List Nat} (h : l.length < maxId) : ∃ i, (1 ≤ i ∧ i ≤ maxId) ∧ i ∉ l := by
  by_contra hc
  push Not at hc
  have hsub : (List.range' 1 maxId) ⊆ l := by
    intro x hx
    rw [List.mem_range'_1] at hx
    exact hc x ⟨hx.1, by omega⟩
  have := (List.nodup_range' (s := 1) (n := maxId) (step := 1) (by omega)).subperm hsub |>.length_le
  rw [List.length_range'] at this
  omega

theorem addData_stops {reg ρ fuel L} {st : Ed} {p : Nat} (hρ : IsOrder ρ) (h : Pre reg L st) (hp : p ∈ L) (hf : L.length < fuel) (hm : maxId ≤ fuel)
    (hn : st.nodes.length < maxId) : addData reg ρ fuel st p ≠ .deep := by
  unfold addData
  obtain ⟨i, hi, hu⟩ := exists_free (l := st.nodes.map (·.2)) (by simpa using hn)
  obtain ⟨r, hr⟩ := freeId_total _ _ h.ctr i hi hu fuel hm
  rw [hr]
  simp only
  have := preview_stops (reg := reg) (order := (ρ st.nodes).map (·.1)) (L := L) (fun q hq => h.sub q ((mem_order hρ).mp hq)) h.loops fuel p st.arena [] (by simpa using hf)
    List.nodup_nil (by simp) hp (by simp) (by simp) (Less.refl _) (h.good.safe hp)
  cases hv : preview reg ((ρ st.nodes).map (·.1)) fuel p st.arena with
  | ub => intro h; cases h
  | deep => exact absurd hv this
  | ok A => intro h; cases h

theorem addAll_ok {reg ρ fuel L} : ∀ (ps : List Nat) (st st' : Ed), Pre reg L st → (∀ p ∈ ps, p ∈ L) → ps.Nodup → (∀ p ∈ ps, p ∉ ptrs st) →
    addAll reg ρ fuel ps st = .ok st' → Pre reg L st' ∧ (∀ q, q ∈ ptrs st' ↔ q ∈ ps ∨ q ∈ ptrs st) ∧ st'.dropped = st.dropped := by
  intro ps
  induction ps with
  | nil => intro st st' h _ _ _ e; simp only [addAll] at e; cases e; exact ⟨h, by simp, rfl⟩
  | cons p ps ih =>
    intro st st' h hL hnd hd e
    rw [addAll] at e
    cases ha : addData reg ρ fuel st p with
    | ub => rw [ha] at e; cases e
    | deep => rw [ha] at e; cases e
    | ok st1 =>
      rw [ha] at e
      obtain ⟨a1, a2, a3, _⟩ := addData_ok h (hL p (by simp)) (hd p (by simp)) ha
      obtain ⟨n1, n2⟩ := List.nodup_cons.mp hnd
      obtain ⟨b1, b2, b3⟩ := ih st1 st' a1 (fun q hq => hL q (by simp [hq])) n2 (by
        intro q hq hq'
        rw [a2] at hq'
        rcases List.mem_cons.mp hq' with rfl | hq'
        · exact n1 hq
        · exact hd q (by simp [hq]) hq') e
      refine ⟨b1, fun q => ?_, b3.trans a3⟩
      rw [b2 q, a2]
      simp only [List.mem_cons]; tauto

theorem addAll_safe {reg ρ fuel L} (hρ : IsOrder ρ) : ∀ (ps : List Nat) (st : Ed), Pre reg L st → (∀ p ∈ ps, p ∈ L) → ps.Nodup → (∀ p ∈ ps, p ∉ ptrs st) →
    addAll reg ρ fuel ps st ≠ .ub := by
  intro ps
  induction ps with
  | nil => intro st _ _ _ _ e; cases e
  | cons p ps ih =>
    intro st h hL hnd hd e
    rw [addAll] at e
    cases ha : addData reg ρ fuel st p with
    | ub => exact addData_safe hρ h (hL p (by simp)) ha
    | deep => rw [ha] at e; cases e
    | ok st1 =>
      rw [ha] at e
      obtain ⟨a1, a2, a3, _⟩ := addData_ok h (hL p (by simp)) (hd p (by simp)) ha
      obtain ⟨n1, n2⟩ := List.nodup_cons.mp hnd
      exact ih st1 a1 (fun q hq => hL q (by simp [hq])) n2 (by
        intro q hq hq'
        rw [a2] at hq'
        rcases List.mem_cons.mp hq' with rfl | hq'
        · exact n1 hq
        · exact hd q (by simp [hq]) hq') e

theorem addAll_stops {reg ρ fuel L} (hρ : IsOrder ρ) (hf : L.length < fuel) (hm : maxId ≤ fuel) : ∀ (ps : List Nat) (st : Ed), Pre reg L st → (∀ p ∈ ps, p ∈ L) → ps.Nodup →
    (∀ p ∈ ps, p ∉ ptrs st) → st.nodes.length + ps.length ≤ maxId → addAll reg ρ fuel ps st ≠ .deep := by
  intro ps
  induction ps with
  | nil => intro st _ _ _ _ _ e; cases e
  | cons p ps ih =>
    intro st h hL hnd hd hn e
    rw [addAll] at e
    simp only [List.length_cons] at hn
    cases ha : addData reg ρ fuel st p with
    | ub => rw [ha] at e; cases e
    | deep => exact addData_stops hρ h (hL p (by simp)) hf hm (by omega) ha
    | ok st1 =>
      rw [ha] at e
      obtain ⟨a1, a2, a3, _⟩ := addData_ok h (hL p (by simp)) (hd p (by simp)) ha
      obtain ⟨n1, n2⟩ := List.nodup_cons.mp hnd
      refine ih st1 a1 (fun q hq => hL q (by simp [hq])) n2 (by
        intro q hq hq'
        rw [a2] at hq'
        rcases List.mem_cons.mp hq' with rfl | hq'
        · exact n1 hq
        · exact hd q (by simp [hq]) hq') ?_ e
      have : (ptrs st1).length = (ptrs st).length + 1 := by rw [a2]; rfl
      simp only [ptrs, List.length_map] at this
      omega

/-- New heap objects. -/
theorem pre_append {reg} {st : Ed} {nds : List NodeData} (h : Inv reg st) (hs : ∀ n ∈ nds, Shaped reg n)
    (hl : ∀ p c, LinkND nds p c → c < p) :
    Pre reg ((List.range nds.length).map (st.arena.length + ·) ++ ptrs st) { st with arena := st.arena ++ nds.map (shift st.arena.length) } ∧
    (∀ p ∈ (List.range nds.length).map (st.arena.length + ·), p ∉ ptrs st) ∧ ((List.range nds.length).map (st.arena.length + ·)).Nodup := by
  have hold : ∀ p c, p < st.arena.length → (LinkND (st.arena ++ nds.map (shift st.arena.length)) p c ↔ LinkND st.arena p c) := by
    intro p c hp
    unfold LinkND
    rw [List.getElem?_append_left hp]
  have hnew : ∀ k c, LinkND (st.arena ++ nds.map (shift st.arena.length)) (st.arena.length + k) c → ∃ c', c = st.arena.length + c' ∧ LinkND nds k c' := by
    rintro k c ⟨n, hn, hc⟩
    rw [List.getElem?_append_right (by omega), show st.arena.length + k - st.arena.length = k by omega, List.getElem?_map, Option.map_eq_some_iff] at hn
    obtain ⟨m, hm, rfl⟩ := hn
    rcases hc with hc | ⟨v, hc⟩
    · simp only [shift, List.mem_map] at hc
      obtain ⟨a, ha, e⟩ := hc
      cases a with
      | none => simp at e
      | some a => simp at e; exact ⟨a, e.symm, m, hm, Or.inl ha⟩
    · simp only [shift, List.mem_map] at hc
      obtain ⟨⟨a, w⟩, ha, e⟩ := hc
      cases a with
      | none => simp at e
      | some a => simp at e; exact ⟨a, e.1.symm, m, hm, Or.inr ⟨w, ha⟩⟩
  have hptr : ∀ p ∈ ptrs st, p < st.arena.length := fun p hp => h.good.lt hp
  have hmem : ∀ p, p ∈ (List.range nds.length).map (st.arena.length + ·) ++ ptrs st ↔ (∃ k < nds.length, p = st.arena.length + k) ∨ p ∈ ptrs st := by
    intro p
    rw [List.mem_append, List.mem_map]
    simp only [List.mem_range]
    constructor
    · rintro (⟨k, h1, h2⟩ | h1); exacts [Or.inl ⟨k, h1, h2.symm⟩, Or.inr h1]
    · rintro (⟨k, h1, h2⟩ | h1); exacts [Or.inl ⟨k, h1, h2.symm⟩, Or.inr h1]
  refine ⟨⟨⟨?_, ?_, ?_⟩, ?_, ?_, h.pnd, h.idnd, h.idr, h.ctr⟩, ?_, ?_⟩
  · intro p hp
    rcases (hmem p).mp hp with ⟨k, hk, rfl⟩ | hp
    · obtain ⟨id, m, b1, b2, b3, b4, b5⟩ := hs nds[k] (List.getElem_mem _)
      refine ⟨shift st.arena.length nds[k], id, m, ?_, b1, b2, b3, by simpa [shift] using b4, by simpa [shift] using b5⟩
      simp only
      rw [List.getElem?_append_right (by omega), show st.arena.length + k - st.arena.length = k by omega, List.getElem?_map, List.getElem?_eq_getElem hk]; rfl
    · obtain ⟨nd, id, m, a1, a2⟩ := h.good.live p hp
      exact ⟨nd, id, m, by simp only; rw [List.getElem?_append_left (hptr p hp)]; exact a1, a2⟩
  · intro p hp c hc
    rcases (hmem p).mp hp with ⟨k, hk, rfl⟩ | hp
    · obtain ⟨c', rfl, hc'⟩ := hnew k c hc
      have := hl _ _ hc'
      exact (hmem _).mpr (Or.inl ⟨c', by omega, rfl⟩)
    · exact (hmem _).mpr (Or.inr (h.good.closed p hp c ((hold p c (hptr p hp)).mp hc)))
  · intro p hp c hc
    rcases Nat.lt_or_ge p st.arena.length with hlt | hge
    · exact h.good.quiet p (fun h' => hp ((hmem p).mpr (Or.inr h'))) c ((hold p c hlt).mp hc)
    · obtain ⟨n, hn, _⟩ := hc
      have := (List.getElem?_eq_some_iff.mp hn).1
      simp only [List.length_append, List.length_map] at this
      exact hp ((hmem p).mpr (Or.inl ⟨p - st.arena.length, by omega, by omega⟩))
  · intro q hq hc
    have key : ∀ a b, TransGen (LinkND (st.arena ++ nds.map (shift st.arena.length))) a b → (a < st.arena.length → TransGen (LinkND st.arena) a b ∧ b < st.arena.length) ∧
        (st.arena.length ≤ a → b < a) := by
      intro a b hab
      induction hab with
      | single hl' =>
        rename_i b
        constructor
        · intro ha
          have := (hold a b ha).mp hl'
          refine ⟨.single this, ?_⟩
          by_cases hm : a ∈ ptrs st
          · exact hptr b (h.good.closed a hm b this)
          · exact absurd this (h.good.quiet a hm b)
        · intro ha
          obtain ⟨c', rfl, hc'⟩ := hnew (a - st.arena.length) b (by rw [show st.arena.length + (a - st.arena.length) = a by omega]; exact hl')
          have := hl _ _ hc'
          omega
      | tail h1 hl' ih =>
        rename_i b c
        constructor
        · intro ha
          obtain ⟨i1, i2⟩ := ih.1 ha
          have := (hold b c i2).mp hl'
          refine ⟨i1.tail this, ?_⟩
          by_cases hm : b ∈ ptrs st
          · exact hptr c (h.good.closed b hm c this)
          · exact absurd this (h.good.quiet b hm c)
        · intro ha
          have hba := ih.2 ha
          rcases Nat.lt_or_ge b st.arena.length with hb | hb
          · have := (hold b c hb).mp hl'
            by_cases hm : b ∈ ptrs st
            · have := hptr c (h.good.closed b hm c this); omega
            · exact absurd this (h.good.quiet b hm c)
          · obtain ⟨c', rfl, hc'⟩ := hnew (b - st.arena.length) c (by rw [show st.arena.length + (b - st.arena.length) = b by omega]; exact hl')
            have := hl _ _ hc'
            omega
    rcases Nat.lt_or_ge q st.arena.length with hlt | hge
    · have := ((key q q hc).1 hlt).1
      rcases (hmem q).mp hq with ⟨k, hk, e⟩ | hq
      · omega
      · exact h.loops q hq this
    · have := (key q q hc).2 hge; omega
  · intro p hp; exact (hmem p).mpr (Or.inr hp)
  · intro p hp hp'
    have := hptr p hp'
    rw [List.mem_map] at hp
    obtain ⟨k, _, rfl⟩ := hp
    omega
  · exact List.Nodup.map (fun a b h => by simpa using h) List.nodup_range

end FastNoise.Editor
