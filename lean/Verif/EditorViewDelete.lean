import Verif.EditorViewAdd
/-! # What is shown: a node is deleted (lemmas for C55) -/
namespace FastNoise.Editor
open FastNoise.Ser FastNoise.Stream FastNoise.Deser FastNoise.Spec FastNoise.RT FastNoise.Registry
open Relation

variable {E : Env}

/-- A link that is not to `x`. -/
def cutTo (x : Nat) (l : Option Nat) : Option Nat := if l = some x then none else l

/-- `nd` without its links to `x`. -/
def strip (x : Nat) (nd : NodeData) : NodeData := { nd with lookups := nd.lookups.map (cutTo x), hybrids := nd.hybrids.map fun h => (cutTo x h.1, h.2) }

theorem zip_parts {α β : Type} : ∀ l : List (α × β), l = (l.map (·.1)).zip (l.map (·.2)) := by
  intro l
  induction l with
  | nil => rfl
  | cons a l ih => simp only [List.map_cons, List.zip_cons_cons]; rw [← ih]

theorem nd_ext {a b : NodeData} (h1 : a.md = b.md) (h2 : a.vars = b.vars) (h3 : a.lookups.length = b.lookups.length) (h4 : a.hybrids.map (·.2) = b.hybrids.map (·.2)) (h5 : links a = links b) : a = b := by
  unfold links at h5
  obtain ⟨e1, e2⟩ := List.append_inj h5 h3
  have e3 : a.hybrids = b.hybrids := by rw [zip_parts a.hybrids, zip_parts b.hybrids, e2, h4]
  cases a; cases b
  simp only at h1 h2 e1 e3
  subst h1 h2 e1 e3
  rfl

theorem links_strip (x : Nat) (nd : NodeData) : links (strip x nd) = (links nd).map (cutTo x) := by
  unfold links strip
  simp [List.map_map, Function.comp_def]

theorem nlink_strip {x c : Nat} {nd : NodeData} : NLink (strip x nd) c ↔ NLink nd c ∧ c ≠ x := by
  rw [← mem_links, ← mem_links, links_strip, List.mem_map]
  constructor
  · rintro ⟨l, h1, h2⟩
    unfold cutTo at h2
    split_ifs at h2 with e
    subst h2
    exact ⟨h1, fun h => e (by rw [h])⟩
  · rintro ⟨h1, h2⟩
    exact ⟨some c, h1, by unfold cutTo; rw [if_neg (by simpa using h2)]⟩

theorem strip_id {x : Nat} {nd : NodeData} (h : ¬ NLink nd x) : strip x nd = nd := by
  refine nd_ext rfl rfl (by simp [strip]) (by simp [strip]) ?_
  rw [links_strip]
  conv_rhs => rw [← List.map_id (links nd)]
  apply List.map_congr_left
  intro l hl
  unfold cutTo
  rw [if_neg]; · rfl
  rintro rfl
  exact h (mem_links.mp hl)

theorem dropLinks_gen {id : Nat} (hid : id ≤ maxId) (x : Nat) : ∀ (ls : List (Option Nat)) (k : Nat) (nd : NodeData), (links nd).length ≤ 16 → links nd = (links nd).take k ++ ls → k ≤ (links nd).length →
    ∃ nd', dropLinks x ls (startAttr id + k) nd = some nd' ∧ nd'.md = nd.md ∧ nd'.vars = nd.vars ∧ nd'.lookups.length = nd.lookups.length ∧
      nd'.hybrids.map (·.2) = nd.hybrids.map (·.2) ∧ links nd' = (links nd).take k ++ ls.map (cutTo x) := by
  intro ls
  induction ls with
  | nil => intro k nd _ h _; exact ⟨nd, rfl, rfl, rfl, rfl, rfl, by simpa using h⟩
  | cons l ls ih =>
    intro k nd h16 hk hle
    have hlen : (links nd).length = k + (ls.length + 1) := by
      have := congrArg List.length hk
      simp only [List.length_append, List.length_take, List.length_cons] at this
      omega
    have hklt : k < (links nd).length := by omega
    have hget : (links nd)[k]? = some l := by
      rw [hk, List.getElem?_append_right (by rw [List.length_take]; omega), List.length_take, Nat.min_eq_left hle]
      simp
    rw [dropLinks]
    by_cases hl : l = some x
    · rw [if_pos hl]
      obtain ⟨nd1, s1, s2, s3, s4, s5, s6⟩ := setLink_spec hid hklt h16 none
      rw [s1]
      simp only [Option.bind_some]
      have ht : (links nd1).take (k + 1) = (links nd).take k ++ [none] := by
        rw [s6, List.take_set, List.take_add_one, hget, List.set_append_right _ _ (by rw [List.length_take]; omega), List.length_take, Nat.min_eq_left hle]
        simp
      obtain ⟨nd', d1, d2, d3, d4, d5, d6⟩ := ih (k + 1) nd1 (by rw [s6, List.length_set]; exact h16) (by
        rw [ht, s6]
        conv_lhs => rw [hk]
        rw [List.set_append_right _ _ (by rw [List.length_take]; omega), List.length_take, Nat.min_eq_left hle]
        simp) (by rw [s6, List.length_set]; omega)
      refine ⟨nd', by rw [show startAttr id + k + 1 = startAttr id + (k + 1) by omega]; exact d1, d2.trans s2, d3.trans s3, d4.trans s4, d5.trans s5, ?_⟩
      rw [d6, ht, List.map_cons, hl]
      simp [cutTo]
    · rw [if_neg hl]
      have ht : (links nd).take (k + 1) = (links nd).take k ++ [l] := by rw [List.take_add_one, hget]; rfl
      obtain ⟨nd', d1, d2, d3, d4, d5, d6⟩ := ih (k + 1) nd h16 (by rw [ht]; simpa using hk) (by omega)
      refine ⟨nd', by rw [show startAttr id + k + 1 = startAttr id + (k + 1) by omega]; exact d1, d2, d3, d4, d5, ?_⟩
      rw [d6, ht, List.map_cons]
      simp [cutTo, hl]

theorem dropLinks_strip {id : Nat} (hid : id ≤ maxId) {x : Nat} {nd : NodeData} (h16 : (links nd).length ≤ 16) : dropLinks x (links nd) (startAttr id) nd = some (strip x nd) := by
  obtain ⟨nd', d1, d2, d3, d4, d5, d6⟩ := dropLinks_gen hid x (links nd) 0 nd h16 (by simp) (by omega)
  rw [Nat.add_zero] at d1
  rw [d1, nd_ext (a := nd') (b := strip x nd) d2 d3 (by rw [d4]; simp [strip]) (by rw [d5]; simp [strip]) (by rw [d6, links_strip]; simp)]

/-- The graph without `x`. -/
def without (x : Nat) (A : Arena) : Arena := kill (A.map (strip x)) x

theorem without_get {x q : Nat} {A : Arena} (h : q ≠ x) : (without x A)[q]? = (A[q]?).map (strip x) := by
  unfold without kill
  rw [List.getElem?_set_ne (Ne.symm h), List.getElem?_map]

theorem without_len {x : Nat} {A : Arena} : (without x A).length = A.length := by simp [without, kill]

theorem without_self {x : Nat} {A : Arena} : (without x A)[x]? = (kill A x)[x]? := by
  unfold without kill
  rw [List.getElem?_set, List.getElem?_set]
  simp

theorem without_link {x q c : Nat} {A : Arena} (h : LinkND (without x A) q c) : LinkND A q c ∧ q ≠ x ∧ c ≠ x := by
  obtain ⟨n, h1, h2⟩ := h
  by_cases e : q = x
  · subst e
    rw [without_self] at h1
    unfold kill at h1
    rw [List.getElem?_set] at h1
    simp only [if_true] at h1
    split_ifs at h1
    cases h1
    rcases h2 with h | ⟨_, h⟩ <;> cases h
  · rw [without_get e, Option.map_eq_some_iff] at h1
    obtain ⟨m, m1, rfl⟩ := h1
    have := nlink_strip.mp h2
    exact ⟨⟨m, m1, this.1⟩, e, this.2⟩

theorem without_keep {x q c : Nat} {A : Arena} (h : LinkND A q c) (hq : q ≠ x) (hc : c ≠ x) : LinkND (without x A) q c := by
  obtain ⟨n, h1, h2⟩ := h
  exact ⟨strip x n, by rw [without_get hq, h1]; rfl, nlink_strip.mpr ⟨h2, hc⟩⟩

theorem without_same {x q : Nat} {A : Arena} (hq : q ≠ x) (h : ¬ LinkND A q x) : (without x A)[q]? = A[q]? := by
  rw [without_get hq]
  cases hn : A[q]? with
  | none => rfl
  | some n => simp only [Option.map_some]; rw [strip_id fun hl => h ⟨n, hn, hl⟩]

theorem ready_without {L L' : List Nat} {A : Arena} {x : Nat} (h : Ready E L A) (hL : ∀ q, q ∈ L' ↔ q ∈ L ∧ q ≠ x) (hle : L'.length ≤ L.length) : Ready E L' (without x A) where
  live p hp := by
    obtain ⟨h1, h2⟩ := (hL p).mp hp
    obtain ⟨nd, a1, id, m, b1, b2, b3, b4, b5⟩ := h.live p h1
    exact ⟨strip x nd, by rw [without_get h2, a1]; rfl, id, m, b1, b2, b3, by simpa [strip] using b4, by simpa [strip] using b5⟩
  closed p hp c hc := by
    obtain ⟨h1, h2⟩ := (hL p).mp hp
    obtain ⟨c1, _, c3⟩ := without_link hc
    exact (hL c).mpr ⟨h.closed p h1 c c1, c3⟩
  loops q hq ht := h.loops q ((hL q).mp hq).1 (TransGen.mono (fun _ _ hl => (without_link hl).1) _ _ ht)
  fit q hq := by
    obtain ⟨g1, g2⟩ := (hL q).mp hq
    intro i c nd nc id cid m mc h1 h2 h3 h4 h5 h6 h7 h8
    have hc := (without_link ⟨nd, h1, Or.inl (List.mem_of_getElem? h5)⟩).2.2
    rw [without_get g2, Option.map_eq_some_iff] at h1
    obtain ⟨n, n1, rfl⟩ := h1
    rw [without_get hc, Option.map_eq_some_iff] at h6
    obtain ⟨n', n1', rfl⟩ := h6
    simp only [strip, List.getElem?_map, Option.map_eq_some_iff] at h5
    obtain ⟨l, l1, l2⟩ := h5
    have : l = some c := by unfold cutTo at l2; split_ifs at l2; exact l2
    subst this
    exact h.fit q g1 i c n n' id cid m mc n1 h2 h3 h4 l1 n1' h7 h8
  size := by rw [without_len]; exact h.size
  few := hle.trans h.few

/-- What holds while the users of `x` are repaired one by one. -/
structure Part (E : Env) (x : Nat) (L' : List Nat) (A0 : Arena) (v0 : View) (s : Arena × View) : Prop where
  mix : ∀ q, q ≠ x → s.1[q]? = A0[q]? ∨ s.1[q]? = (without x A0)[q]?
  gone : s.1[x]? = (without x A0)[x]?
  len : s.1.length = A0.length
  sel : s.2.selected = v0.selected
  txt : ∀ q ∈ L', (∀ r, Reach (without x A0) q r → s.1[r]? = (without x A0)[r]?) →
    s.2.text q = tx E.reg (without x A0) q ∧ (s.2.selected = some q → tx E.reg (without x A0) q ≠ [] → InUse E.detached (tx E.reg (without x A0) q) s.2)

/-- Repairing one user. -/
theorem part_step (hE : EnvOK E) {x : Nat} {L L' order : List Nat} {A0 : Arena} {v0 : View} (h : Ready E L A0) (hL : ∀ q, q ∈ L' ↔ q ∈ L ∧ q ≠ x) (hle : L'.length ≤ L.length) (hx : x ∈ L)
    (hord : ∀ q, q ∈ order ↔ q ∈ L') (hu : ∀ n m d, LinkND A0 n x → LinkND A0 m x → Reach A0 d n → Reach A0 d m → n = m) {n : Nat} (hn : n ∈ L') {A : Arena} {v : View} (hI : Part E x L' A0 v0 (A, v))
    {nd : NodeData} (hnd : A[n]? = some nd) (hlx : NLink nd x) {fuel : Nat} {r : Arena × View} (e : previewV E true order fuel n (A.set n (strip x nd), v) = .ok r) :
    Part E x L' A0 v0 r ∧ r.1 = A.set n (strip x nd) ∧ A0[n]? = some nd := by
  have hF := ready_without h hL hle
  obtain ⟨hnL, hnx⟩ := (hL n).mp hn
  have hA0n : A0[n]? = some nd := by
    rcases hI.mix n hnx with e | e
    · rw [← e]; exact hnd
    · simp only at e
      exact absurd rfl (without_link (x := x) (q := n) (c := x) (A := A0) ⟨nd, by rw [← e]; exact hnd, hlx⟩).2.2
  have hFn : (without x A0)[n]? = some (strip x nd) := by rw [without_get hnx, hA0n]; rfl
  have hltA : n < A.length := (List.getElem?_eq_some_iff.mp hnd).1
  have hlink0 : LinkND A0 n x := ⟨nd, hA0n, hlx⟩
  have hBn : (A.set n (strip x nd))[n]? = (without x A0)[n]? := by rw [List.getElem?_set_self hltA, hFn]
  have hBo : ∀ q, q ≠ n → (A.set n (strip x nd))[q]? = A[q]? := fun q hq => List.getElem?_set_ne (Ne.symm hq)
  have hmix : ∀ q, q ≠ x → (A.set n (strip x nd))[q]? = A0[q]? ∨ (A.set n (strip x nd))[q]? = (without x A0)[q]? := by
    intro q hq
    by_cases e : q = n
    · subst e; exact Or.inr hBn
    · rw [hBo q e]; exact hI.mix q hq
  have hBlen : (A.set n (strip x nd)).length = A0.length := by rw [List.length_set]; exact hI.len
  have hnotx : ∀ y, Reach A0 y n → y ≠ x := by
    rintro y hr rfl
    exact h.loops y hx (TransGen.tail' hr hlink0)
  have hup : ∀ y z, y ∈ L' → LinkND (A.set n (strip x nd)) y z → LinkND A0 y z := by
    intro y z hy hl
    rcases hmix y ((hL y).mp hy).2 with e | e
    · unfold LinkND at hl ⊢; rw [e] at hl; exact hl
    · refine (without_link (x := x) ?_).1; unfold LinkND at hl ⊢; rw [e] at hl; exact hl
  have hdown : ∀ y z, y ∈ L' → z ≠ x → LinkND A0 y z → LinkND (A.set n (strip x nd)) y z := by
    intro y z hy hz hl
    have hyx := ((hL y).mp hy).2
    rcases hmix y hyx with e | e
    · unfold LinkND at hl ⊢; rw [e]; exact hl
    · have := without_keep hl hyx hz
      unfold LinkND at this ⊢; rw [e]; exact this
  have hreach : ∀ q r, Reach (without x A0) q r → Reach A0 q r := fun q r hr => ReflTransGen.mono (fun _ _ hl => (without_link hl).1) _ _ hr
  have hU : ∀ q, (q ∈ L' ∧ Reach A0 q n) → Stable E (A.set n (strip x nd)) (tx E.reg (without x A0)) q := by
    rintro q ⟨hq, hqn⟩
    refine (hF.agree hE hq (by rw [hBlen]; exact h.size) fun r hr => ?_).2
    have hrL := hF.reach hq hr
    have hrx := ((hL r).mp hrL).2
    rcases hmix r hrx with e | e
    · by_cases hrn : r = n
      · subst hrn; exact hBn
      · rw [e]
        refine (without_same hrx fun hl => hrn ?_).symm
        exact hu r n q hl hlink0 (hreach q r hr) hqn
    · exact e
  obtain ⟨a1, a2, a3⟩ := preview_stable (tree := true) (order := order) (U := fun q => q ∈ L' ∧ Reach A0 q n) (τ := tx E.reg (without x A0)) hU
    (fun q c hq hc hl => ⟨(hord q).mp hq, ReflTransGen.head (hup q c ((hord q).mp hq) hl) hc.2⟩) fuel n v r ⟨hn, .refl⟩ e
  have hpath : ∀ q, Reach A0 q n → q ∈ L' → ReflTransGen (OLink order (A.set n (strip x nd))) q n := by
    intro q hr
    induction hr using ReflTransGen.head_induction_on with
    | refl => exact fun _ => .refl
    | @head y z hl hzn ih =>
      intro hy
      have hz : z ∈ L' := (hL z).mpr ⟨h.closed y ((hL y).mp hy).1 z hl, hnotx z hzn⟩
      exact (ih hz).head ⟨(hord y).mpr hy, hdown y z hy (hnotx z hzn) hl⟩
  refine ⟨⟨?_, ?_, ?_, a2.sel.trans hI.sel, ?_⟩, a1, hA0n⟩
  · rw [a1]; exact hmix
  · rw [a1, hBo x (Ne.symm hnx)]; exact hI.gone
  · rw [a1]; exact hBlen
  · intro q hq hall
    rw [a1] at hall
    by_cases hqn : Reach A0 q n
    · obtain ⟨d1, d2⟩ := a3 q (hpath q hqn hq)
      exact ⟨d1, fun hs hne => d2 rfl hs ((hord q).mpr hq) hne⟩
    · obtain ⟨o1, o2⟩ := hI.txt q hq (fun r hr => by
        have : r ≠ n := by rintro rfl; exact hqn (hreach q r hr)
        simp only
        rw [← hBo r this]; exact hall r hr)
      simp only at o1 o2
      refine ⟨?_, fun hs hne => ?_⟩
      · rcases a2.txt q with e | e
        · rw [e]; exact o1
        · exact e.2
      · rw [a2.sel] at hs
        rcases a2.use with e | ⟨y, b1, b2, b3, b4, b5⟩
        · exact (o2 hs hne).same e
        · rw [hs] at b1; cases b1; exact b5

/-- "Delete". -/
theorem VS.delete (hE : EnvOK E) {s s' : Ed × View} (hinv : Inv E.reg s.1) (h : VS E s) {ρ} (hρ : IsOrder ρ) {fuel x : Nat} (hx : x ∈ ptrs s.1) (hu : OneUserPath s.1 x)
    (e : deleteNodeV E ρ fuel x s = .ok s') : VS E s' := by
  obtain ⟨st, v⟩ := s
  simp only at hinv hx hu
  have hR : Ready E (ptrs st) st.arena := h.ready
  have hL : ∀ q, q ∈ (st.nodes.filter fun n => n.1 ≠ x).map (·.1) ↔ q ∈ ptrs st ∧ q ≠ x := fun q => filter_ptrs
  have hle : ((st.nodes.filter fun n => n.1 ≠ x).map (·.1)).length ≤ (ptrs st).length := by
    simp only [ptrs, List.length_map]; exact List.length_filter_le _ _
  have hord : ∀ q, q ∈ (ρ (st.nodes.filter fun n => n.1 ≠ x)).map (·.1) ↔ q ∈ (st.nodes.filter fun n => n.1 ≠ x).map (·.1) := fun q => mem_order hρ
  have hF := ready_without hR hL hle
  unfold deleteNodeV at e
  obtain ⟨r, e1, e2⟩ := out_bind e
  cases e2
  simp only at e1
  have hI0 : Part E x ((st.nodes.filter fun n => n.1 ≠ x).map (·.1)) st.arena v (kill st.arena x, v) := by
    refine ⟨fun q hq => Or.inl (by unfold kill; exact List.getElem?_set_ne (Ne.symm hq)), without_self.symm, by simp [kill], rfl, ?_⟩
    intro q hq hall
    obtain ⟨q1, q2⟩ := (hL q).mp hq
    have hk : ∀ r, r ≠ x → (kill st.arena x)[r]? = st.arena[r]? := fun r hr => by unfold kill; exact List.getElem?_set_ne (Ne.symm hr)
    have htx : tx E.reg (without x st.arena) q = tx E.reg st.arena q := by
      refine ((hF.agree hE hq hR.size fun r hr => ?_).1).symm
      have hrx := ((hL r).mp (hF.reach hq hr)).2
      rw [← hall r hr]
      exact (hk r hrx).symm
    simp only
    rw [htx, ← h.cur q q1]
    exact ⟨rfl, fun hs hne => h.sync q q1 hs hne⟩
  obtain ⟨b1, _, b3⟩ := loop_rel (R := fun s s' : Arena × View => ∀ q, s.1[q]? = (without x st.arena)[q]? → s'.1[q]? = (without x st.arena)[q]?)
    (I := Part E x ((st.nodes.filter fun n => n.1 ≠ x).map (·.1)) st.arena v) (D := fun n s => s.1[n.1]? = (without x st.arena)[n.1]?) (fun _ _ h => h) (fun _ _ _ h1 h2 q hq => h2 q (h1 q hq))
    (fun n _ _ hR hD => hR n.1 hD) (ρ (st.nodes.filter fun n => n.1 ≠ x)) (by
      intro n hn r r' hI hb
      obtain ⟨hnn, _⟩ := List.mem_filter.mp ((hρ _).mem_iff.mp hn)
      have hn' : n.1 ∈ (st.nodes.filter fun n => n.1 ≠ x).map (·.1) := (hord _).mp (List.mem_map.mpr ⟨n, hn, rfl⟩)
      obtain ⟨hnL, hnx⟩ := (hL _).mp hn'
      cases hnd : r.1[n.1]? with
      | none => simp only [hnd] at hb; cases hb
      | some nd =>
        simp only [hnd] at hb
        by_cases hlx : NLink nd x
        · have hA0n : st.arena[n.1]? = some nd := by
            rcases hI.mix n.1 hnx with e | e
            · rw [← e]; exact hnd
            · exact absurd rfl (without_link (x := x) (q := n.1) (c := x) (A := st.arena) ⟨nd, by rw [← e]; exact hnd, hlx⟩).2.2
          obtain ⟨nd0, g1, g2⟩ := hR.live n.1 hnL
          rw [hA0n] at g1; cases g1
          rw [dropLinks_strip (ptr_id hinv hnn).2 (g2.few hE.few)] at hb
          simp only at hb
          rw [if_pos (mem_links.mpr hlx)] at hb
          obtain ⟨c1, c2, c3⟩ := part_step hE hR hL hle hx hord (fun n m d => hu n m d) hn' (A := r.1) (v := r.2) hI hnd hlx hb
          have hlt : n.1 < r.1.length := (List.getElem?_eq_some_iff.mp hnd).1
          have hdone : r'.1[n.1]? = (without x st.arena)[n.1]? := by rw [c2, List.getElem?_set_self hlt, without_get hnx, c3]; rfl
          refine ⟨c1, fun q hq => ?_, hdone⟩
          by_cases e : q = n.1
          · rw [e]; exact hdone
          · rw [c2, List.getElem?_set_ne (Ne.symm e)]; exact hq
        · cases hd : dropLinks x (links nd) (startAttr n.2) nd with
          | none => simp only [hd] at hb; cases hb
          | some nd' =>
            simp only [hd] at hb
            rw [if_neg (fun hc => hlx (mem_links.mp hc))] at hb
            cases hb
            refine ⟨hI, fun _ hq => hq, ?_⟩
            rcases hI.mix n.1 hnx with e | e
            · rw [e]
              refine (without_same hnx fun hl => hlx ?_).symm
              obtain ⟨n0, n1, n2⟩ := hl
              rw [← e, hnd] at n1; cases n1; exact n2
            · exact e) (kill st.arena x, v) r hI0 e1
  have hAF : r.1 = without x st.arena := by
    apply List.ext_getElem?
    intro q
    by_cases hqx : q = x
    · rw [hqx]; exact b1.gone
    · by_cases hq : q ∈ ptrs st
      · obtain ⟨n, n1, n2⟩ := List.mem_map.mp ((hord q).mpr ((hL q).mpr ⟨hq, hqx⟩))
        rw [← n2]; exact b3 n n1
      · rcases b1.mix q hqx with e | e
        · rw [e]; exact (without_same hqx fun hl => hinv.good.quiet q hq x hl).symm
        · exact e
  have hall : ∀ q ∈ (st.nodes.filter fun n => n.1 ≠ x).map (·.1), _ := fun q hq => b1.txt q hq (fun r _ => by rw [hAF])
  refine ⟨?_, ?_, ?_, ?_⟩
  · show Ready E ((st.nodes.filter fun n => n.1 ≠ x).map (·.1)) r.1
    rw [hAF]; exact hF
  · intro q hq
    show r.2.text q = tx E.reg r.1 q
    rw [hAF]; exact (hall q hq).1
  · intro q hq hs hne
    simp only at hs hne ⊢
    rw [(hall q hq).1] at hne ⊢
    exact (hall q hq).2 hs hne
  · intro q hq
    show q < r.1.length
    rw [b1.len]
    exact h.old q (by rw [← b1.sel]; exact hq)

end FastNoise.Editor
