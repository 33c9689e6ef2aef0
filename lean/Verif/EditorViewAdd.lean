import Verif.EditorViewOps
/-! # What is shown: new nodes (lemmas for C55) -/
namespace FastNoise.Editor
open FastNoise.Ser FastNoise.Stream FastNoise.Deser FastNoise.Spec FastNoise.RT FastNoise.Registry
open Relation

variable {E : Env}

theorem set_self {A : Arena} {p : Nat} {nd : NodeData} (hn : A[p]? = some nd) : A.set p nd = A := by
  have hlt := (List.getElem?_eq_some_iff.mp hn).1
  apply List.ext_getElem?
  intro i
  by_cases e : p = i
  · subst e; rw [List.getElem?_set_self hlt, hn]
  · rw [List.getElem?_set_ne e]

/-- One new node. -/
theorem VS.addData (hE : EnvOK E) {st : Ed} {v : View} (h : VS E (st, v)) {ρ} (hρ : IsOrder ρ) {p fuel : Nat} {nd : NodeData} (hp : p ∉ ptrs st) (hn : st.arena[p]? = some nd) (hs : Shaped E.reg nd)
    (hl : ∀ c, NLink nd c → c ∈ ptrs st) (hsel : v.selected ≠ some p) (hfew : st.nodes.length + 1 ≤ 65536) {s' : Ed × View} (e : addDataV E ρ fuel p (st, v) = .ok s') :
    VS E s' ∧ ptrs s'.1 = p :: ptrs st ∧ s'.2.selected = v.selected ∧ s'.1.dropped = st.dropped ∧ ∃ nd'', (nd'' = nd ∨ nd'' = unplug nd) ∧ s'.1.arena = st.arena.set p nd'' := by
  have hlt := (List.getElem?_eq_some_iff.mp hn).1
  have hset := set_self hn
  have hcl : ∀ a b, a ∈ ptrs st → ReflTransGen (LinkND st.arena) a b → b ∈ ptrs st := fun a b ha hr => h.ready.reach ha hr
  have hloops : NoLoops (p :: ptrs st) (st.arena.set p nd) := by
    rw [hset]
    intro q hq hc
    rcases List.mem_cons.mp hq with rfl | hq
    · obtain ⟨c, c1, c2⟩ := TransGen.head'_iff.mp hc
      obtain ⟨n, n1, n2⟩ := c1
      rw [hn] at n1; cases n1
      exact hp (hcl c _ (hl c n2) c2)
    · exact h.ready.loops q hq hc
  obtain ⟨nd'', a1, a2, a3⟩ := edit_ready hE (L := p :: ptrs st) hlt (by simp)
    (fun q hq hne => h.ready.live q ((List.mem_cons.mp hq).resolve_left hne))
    (fun q hq hne c hc => List.mem_cons_of_mem _ (h.ready.closed q ((List.mem_cons.mp hq).resolve_left hne) c hc)) hs (fun c hc => List.mem_cons_of_mem _ (hl c hc)) hloops
    (fun q hq hne => by rw [hset]; exact h.ready.fit q ((List.mem_cons.mp hq).resolve_left hne)) h.ready.size (by simpa [ptrs] using hfew)
  unfold addDataV at e
  simp only at e
  cases hf : freeId (st.nodes.map (·.2)) fuel st.counter with
  | none => rw [hf] at e; cases e
  | some id =>
    simp only [hf] at e
    obtain ⟨r, e1, e2⟩ := out_bind e
    cases e2
    have a3 := a3 v
    rw [hset] at a3
    have hm : ∀ q, q ∈ (ρ st.nodes).map (·.1) ↔ q ∈ ptrs st := fun q => mem_order hρ
    obtain ⟨b1, b2, b3, b4⟩ := edit_view hE (A0 := st.arena) a2 (by simp) (fun q hq => List.mem_cons_of_mem _ ((hm q).mp hq))
      (fun q hq => (List.mem_cons.mp hq).imp (fun x => x) (hm q).mpr) (fun q hq => (List.getElem?_set_ne (Ne.symm hq)).symm) h.ready.size
      (fun q hq hne => h.cur q ((List.mem_cons.mp hq).resolve_left hne)) (fun q hq => h.sync q ((hm q).mp hq)) a3 e1
    refine ⟨⟨?_, ?_, ?_, ?_⟩, rfl, b2, rfl, nd'', a1, b1⟩
    · show Ready E (p :: ptrs st) r.1
      rw [b1]; exact a2
    · intro q hq
      show r.2.text q = tx E.reg r.1 q
      rw [b1]; exact b3 q hq
    · intro q hq hs
      rcases List.mem_cons.mp (show q ∈ p :: ptrs st from hq) with rfl | hq
      · rw [show r.2.selected = some q from hs] at b2
        exact absurd b2.symm hsel
      · exact b4 q ((hm q).mpr hq) hs
    · intro q hq
      show q < r.1.length
      rw [b1, List.length_set]
      exact h.old q (by rw [← b2]; exact hq)

/-- More memory changes nothing. -/
theorem VS.more (hE : EnvOK E) {st : Ed} {v : View} (h : VS E (st, v)) (nds : List NodeData) (hsz : (st.arena ++ nds).length < 2 ^ 54) : VS E ({ st with arena := st.arena ++ nds }, v) := by
  have hget : ∀ q ∈ ptrs st, (st.arena ++ nds)[q]? = st.arena[q]? := fun q hq => List.getElem?_append_left (h.ready.lt hq)
  have hlink : ∀ q ∈ ptrs st, ∀ c, LinkND (st.arena ++ nds) q c ↔ LinkND st.arena q c := by
    intro q hq c; unfold LinkND; rw [hget q hq]
  have htx : ∀ q ∈ ptrs st, tx E.reg (st.arena ++ nds) q = tx E.reg st.arena q := fun q hq => (h.ready.agree hE hq hsz fun r hr => hget r (h.ready.reach hq hr)).1
  have htr : ∀ a b, a ∈ ptrs st → TransGen (LinkND (st.arena ++ nds)) a b → TransGen (LinkND st.arena) a b ∧ b ∈ ptrs st := by
    intro a b ha ht
    induction ht with
    | single hl => exact ⟨.single ((hlink a ha _).mp hl), h.ready.closed a ha _ ((hlink a ha _).mp hl)⟩
    | tail _ hl ih => exact ⟨ih.1.tail ((hlink _ ih.2 _).mp hl), h.ready.closed _ ih.2 _ ((hlink _ ih.2 _).mp hl)⟩
  refine ⟨⟨?_, ?_, ?_, ?_, hsz, h.ready.few⟩, ?_, h.sync, ?_⟩
  · intro p hp; simp only; rw [hget p hp]; exact h.ready.live p hp
  · intro p hp c hc; exact h.ready.closed p hp c ((hlink p hp c).mp hc)
  · intro p hp ht; exact h.ready.loops p hp (htr p p hp ht).1
  · intro q hq i c nd nc id cid m mc h1 h2 h3 h4 h5 h6 h7 h8
    simp only at h1 h6
    rw [hget q hq] at h1
    have hc : c ∈ ptrs st := h.ready.closed q hq c ⟨nd, h1, Or.inl (List.mem_of_getElem? h5)⟩
    rw [hget c hc] at h6
    exact h.ready.fit q hq i c nd nc id cid m mc h1 h2 h3 h4 h5 h6 h7 h8
  · intro q hq; simp only; rw [htx q hq]; exact h.cur q hq
  · intro q hq; simp only [List.length_append]; have := h.old q hq; simp only at this; omega

/-- "Add node". -/
theorem VS.addNode (hE : EnvOK E) {s s' : Ed × View} (h : VS E s) {ρ} (hρ : IsOrder ρ) {fuel : Nat} {nd : NodeData} (hs : Shaped E.reg nd) (hl : ∀ c, ¬ NLink nd c) (hfew : s.1.nodes.length + 1 ≤ 65536)
    (hsz : s.1.arena.length + 1 < 2 ^ 54) (e : addNodeV E ρ fuel nd s = .ok s') :
    VS E s' ∧ ptrs s'.1 = s.1.arena.length :: ptrs s.1 ∧ s'.1.dropped = s.1.dropped ∧ ∃ nd'', (nd'' = nd ∨ nd'' = unplug nd) ∧ s'.1.arena = s.1.arena ++ [nd''] := by
  obtain ⟨st, v⟩ := s
  unfold addNodeV at e
  obtain ⟨r, e1, e2⟩ := out_bind e
  simp only at e1 e2 hfew hsz ⊢
  have h' := h.more hE [nd] (by simpa using hsz)
  obtain ⟨a1, a2, a3, a4, nd'', a5, a6⟩ := h'.addData hE hρ (p := st.arena.length) (nd := nd) (fun hm => absurd (h.ready.lt hm) (lt_irrefl _)) (by simp) hs (fun c hc => absurd hc (hl c))
    (fun hs => absurd (h.old _ hs) (lt_irrefl _)) hfew e1
  have a6' : r.1.arena = st.arena ++ [nd''] := by rw [a6]; simp
  split_ifs at e2 with hone
  · obtain ⟨w, w1, w2⟩ := out_bind e2
    cases w2
    exact ⟨a1.select hE (fun q hq => hq) (by rw [a2]; simp) w1, a2, a4, nd'', a5, a6'⟩
  · cases e2
    exact ⟨a1, a2, a4, nd'', a5, a6'⟩

/-- Several new nodes, sources first. -/
theorem VS.addAll (hE : EnvOK E) {ρ} (hρ : IsOrder ρ) {fuel : Nat} {b : Nat} {nds : List NodeData} (hs : ∀ n ∈ nds, Shaped E.reg n) {L0 : List Nat} : ∀ (k i : Nat) (s s' : Ed × View), VS E s →
    i + k = nds.length → (∀ q, q ∈ ptrs s.1 ↔ (b ≤ q ∧ q < b + i) ∨ q ∈ L0) → (∀ q ∈ L0, q < b) → (∀ j, i ≤ j → s.1.arena[b + j]? = nds[j]?) →
    (∀ j n, nds[j]? = some n → ∀ c, NLink n c → b ≤ c ∧ c < b + j) → (∀ q, s.2.selected = some q → q < b) → s.1.nodes.length + k ≤ 65536 →
    loop (addDataV E ρ fuel) ((List.range' i k).map (b + ·)) s = .ok s' → VS E s' ∧ (∀ q, q ∈ ptrs s'.1 ↔ (b ≤ q ∧ q < b + nds.length) ∨ q ∈ L0) := by
  intro k
  induction k with
  | zero =>
    intro i s s' h hi hp _ _ _ _ _ e
    simp only [List.range'_zero, List.map_nil, loop, Out.ok.injEq] at e
    subst e
    have : i = nds.length := by omega
    subst this
    exact ⟨h, hp⟩
  | succ k ih =>
    intro i s s' h hi hp hL0 hget hlk hsel hfew e
    rw [List.range'_succ, List.map_cons] at e
    obtain ⟨s1, e1, e2⟩ := out_bind e
    obtain ⟨st, v⟩ := s
    have hlt : i < nds.length := by omega
    obtain ⟨n, hn⟩ : ∃ n, nds[i]? = some n := ⟨_, List.getElem?_eq_getElem hlt⟩
    simp only at hp hget hsel hfew
    obtain ⟨a1, a2, a3, _, nd'', _, a6⟩ := h.addData hE hρ (p := b + i) (nd := n) (by
        rw [hp]; rintro (⟨_, c⟩ | c)
        · omega
        · have := hL0 _ c; omega)
      (by rw [hget i le_rfl, hn]) (hs n (List.mem_of_getElem? hn)) (fun c hc => (hp c).mpr (Or.inl (hlk i n hn c hc)))
      (fun c => by have := hsel _ c; omega) (by omega) e1
    refine ih (i + 1) s1 s' a1 (by omega) (fun q => ?_) hL0 (fun j hj => ?_) hlk (fun q hq => hsel q (by rw [← a3]; exact hq)) ?_ e2
    · rw [a2, List.mem_cons, hp]
      constructor
      · rintro (rfl | ⟨c, d⟩ | c)
        · left; omega
        · left; omega
        · exact Or.inr c
      · rintro (⟨c, d⟩ | c)
        · by_cases e : q = b + i
          · exact Or.inl e
          · right; left; omega
        · exact Or.inr (Or.inr c)
    · rw [a6, List.getElem?_set_ne (by omega)]
      exact hget j (by omega)
    · have h1 : s1.1.nodes.length = st.nodes.length + 1 := by
        have := congrArg List.length a2
        simpa [ptrs] using this
      omega

end FastNoise.Editor
