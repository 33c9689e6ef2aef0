import Verif.EditorMain
/-! # Domain warp slots hold domain warps

Every preview of a node serialises it with `fixUp`, which takes a source of the wrong kind out of the node's first slot.  Since changing a node also makes the previews of its users,
no session state has a node with a source its type does not accept. -/
namespace FastNoise.Editor
open FastNoise.Ser FastNoise.Deser FastNoise.Stream FastNoise.Spec FastNoise.RT
open Relation

/-- Only the first source slot of a type asks for a domain warp. -/
def WarpFirst (reg : Reg) : Prop := ∀ m ∈ reg, ∀ i, m.lookups[i]? = some Kind.warp → i = 0

theorem warpFirst_reg : WarpFirst Registry.reg := by
  have h : ∀ m ∈ Registry.reg, ∀ k ∈ m.lookups.drop 1, k ≠ Kind.warp := by decide +kernel
  intro m hm i hi
  cases i with
  | zero => rfl
  | succ i =>
    refine absurd rfl (h m hm _ (List.mem_of_getElem? (i := i) ?_))
    rw [List.getElem?_drop, Nat.add_comm]; exact hi

/-- The sources of `p` itself are of the kinds their slots require. -/
def Fits (reg : Reg) (A : Arena) (p : Nat) : Prop :=
  ∀ (i : Nat) c nd nc id cid m mc, A[p]? = some nd → nd.md = some id → reg[id]? = some m → m.lookups[i]? = some Kind.warp → nd.lookups[i]? = some (some c) →
    A[c]? = some nc → nc.md = some cid → reg[cid]? = some mc → mc.isWarp = true

theorem Fits.less {reg : Reg} {A B : Arena} {p : Nat} (h : Fits reg A p) (hl : Less A B) : Fits reg B p := by
  intro i c nd nc id cid m mc h1 h2 h3 h4 h5 h6 h7 h8
  obtain ⟨nd0, g1⟩ : ∃ x, A[p]? = some x := ⟨_, List.getElem?_eq_getElem (by rw [← hl.len]; exact (List.getElem?_eq_some_iff.mp h1).1)⟩
  obtain ⟨nc0, g2⟩ : ∃ x, A[c]? = some x := ⟨_, List.getElem?_eq_getElem (by rw [← hl.len]; exact (List.getElem?_eq_some_iff.mp h6).1)⟩
  have s1 := hl.node p nd0 nd g1 h1
  have s2 := hl.node c nc0 nc g2 h6
  obtain ⟨l0, g3⟩ : ∃ x, nd0.lookups[i]? = some x := ⟨_, List.getElem?_eq_getElem (by rw [← s1.llen]; exact (List.getElem?_eq_some_iff.mp h5).1)⟩
  rcases s1.lk i l0 _ g3 h5 with e | ⟨e, _⟩
  · exact h i c nd0 nc0 id cid m mc g1 (by rw [← s1.md]; exact h2) h3 h4 (by rw [g3, e]) g2 (by rw [← s2.md]; exact h7) h8
  · cases e

/-- Types are what they were. -/
theorem Less.kind {A B : Arena} (hl : Less A B) {c : Nat} {nc : NodeData} (h : B[c]? = some nc) : ∃ n0, A[c]? = some n0 ∧ nc.md = n0.md := by
  obtain ⟨n0, g⟩ : ∃ x, A[c]? = some x := ⟨_, List.getElem?_eq_getElem (by rw [← hl.len]; exact (List.getElem?_eq_some_iff.mp h).1)⟩
  exact ⟨n0, g, (hl.node c n0 nc g h).md⟩

theorem lookups_fit {reg : Reg} {rec : Nat → List Nat → St → SR} {p : Nat} {deps : List Nat}
    (hrec : ∀ c d st b st', rec c d st = .done b st' → Less st.arena st'.arena) {ks : List Kind} {st : St} {b : Bool} {st' : St}
    (h : serLookups reg true rec p deps 0 (Kind.warp :: ks) st = .done b st') {c : Nat} {nd nc : NodeData} {cid : Nat} {mc : Meta}
    (h1 : st'.arena[p]? = some nd) (h2 : nd.lookups[0]? = some (some c)) (h3 : st'.arena[c]? = some nc) (h4 : nc.md = some cid) (h5 : reg[cid]? = some mc) : mc.isWarp = true := by
  have hless := less_lookups hrec _ _ _ _ _ h
  rw [serLookups] at h
  split at h
  · cases h
  · rename_i n hn
    split at h
    · cases h
    · rename_i hl
      cases h
      rw [h1] at hn; cases hn
      rw [h2] at hl; cases hl
    · rename_i child hc
      have hs := hless.node p n nd hn h1
      have hcc : c = child := by
        rcases hs.lk 0 _ _ hc h2 with e | ⟨e, _⟩
        · cases e; rfl
        · cases e
      subst hcc
      obtain ⟨n0, g1, g2⟩ := hless.kind h3
      have ht : testSource reg st.arena Kind.warp c = some mc.isWarp := by
        unfold testSource
        rw [g1]
        simp [← g2, h4, h5, accepts]
      simp only [if_true, ht] at h
      cases hw : mc.isWarp with
      | true => rfl
      | false =>
        rw [hw] at h
        simp only at h
        cases h
        exfalso
        simp only at h1
        rw [List.getElem?_set_self (List.getElem?_eq_some_iff.mp hn).1] at h1
        cases h1
        simp only at h2
        rw [List.getElem?_set_self (List.getElem?_eq_some_iff.mp hc).1] at h2
        cases h2

theorem fixOne_fits {reg : Reg} (hw : WarpFirst reg) {p : Nat} {A A' : Arena} (hs : ∀ nd, A[p]? = some nd → Shaped reg nd) (h : fixOne reg p A = .ok A') : Fits reg A' p := by
  have hless := fixOne_less h
  intro i c nd nc id cid m mc h1 h2 h3 h4 h5 h6 h7 h8
  have hi := hw m (List.mem_of_getElem? h3) i h4
  subst hi
  obtain ⟨nd0, g1, gmd⟩ := hless.kind h1
  obtain ⟨id', m', s1, s2, s3, s4, s5⟩ := hs nd0 g1
  rw [← gmd, h2] at s1; cases s1
  rw [h3] at s2; cases s2
  unfold fixOne serStream at h
  cases hser : ser reg true (A.length + 1) p [] { arena := A, ws := { stream := [], stack := 0 }, refs := [] } with
  | ub => rw [hser] at h; cases h
  | nofuel => rw [hser] at h; cases h
  | done b st =>
    have hA : st.arena = A' := by
      rw [hser] at h
      cases b <;> (simp only at h; cases h; rfl)
    subst hA
    rw [ser] at hser
    simp only [g1, ← gmd, h2, h3] at hser
    rw [if_neg (by push Not; exact ⟨s3, s4, s5⟩)] at hser
    simp only [if_true, List.lookup_nil] at hser
    obtain ⟨ks, hks⟩ : ∃ ks, m.lookups = Kind.warp :: ks := by
      cases hm : m.lookups with
      | nil => rw [hm] at h4; simp at h4
      | cons k ks => rw [hm] at h4; simp at h4; exact ⟨ks, by rw [h4]⟩
    rw [hks] at hser
    have hrec := fun c d st b st' (h : ser reg true A.length c d st = .done b st') => less_ser A.length c d st b st' h
    split at hser
    · rename_i st1 hl1
      have hend : Less st1.arena st.arena := by
        split at hser
        · rename_i st2 hh
          cases hser
          have := less_hybrids hrec _ _ _ _ _ hh
          exact this
        · exact less_hybrids hrec _ _ _ _ _ hser
      obtain ⟨nd1, e1, _⟩ := hend.kind h1
      obtain ⟨nc1, e2, e3⟩ := hend.kind h6
      have hsub := hend.node p nd1 nd e1 h1
      obtain ⟨l1, e4⟩ : ∃ x, nd1.lookups[0]? = some x := ⟨_, List.getElem?_eq_getElem (by rw [← hsub.llen]; exact (List.getElem?_eq_some_iff.mp h5).1)⟩
      rcases hsub.lk 0 _ _ e4 h5 with e | ⟨e, _⟩
      · exact lookups_fit hrec hl1 e1 (by rw [e4, e]) e2 (by rw [← e3]; exact h7) h8
      · cases e
    · exact lookups_fit hrec hser h1 h5 h6 h7 h8

/-- A completed preview of `p` leaves `p` and whatever uses it fitting. -/
theorem preview_fits {reg : Reg} (hw : WarpFirst reg) {order : List Nat} : ∀ (fuel p : Nat) (A A' : Arena), (∀ nd, A[p]? = some nd → Shaped reg nd) →
    preview reg order fuel p A = .ok A' → Fits reg A' p := by
  intro fuel
  cases fuel with
  | zero => intro p A A' _ h; simp [preview] at h
  | succ f =>
    intro p A A' hs h
    rw [preview] at h
    cases hx : fixOne reg p A with
    | ub => rw [hx] at h; cases h
    | deep => rw [hx] at h; cases h
    | ok B =>
      rw [hx] at h
      refine (fixOne_fits hw hs hx).less (forEach_less ?_ B A' h)
      intro x _ C C' hC
      split at hC
      · cases hC
      · refine forEach_less ?_ C C' hC
        intro l _ D D' hD
        split_ifs at hD
        · exact preview_less _ _ _ _ hD
        · cases hD; exact Less.refl _

/-- As `preview_users`, with the arena the user's preview started from. -/
theorem preview_users' {reg : Reg} {order : List Nat} {fuel p : Nat} {A A' : Arena} (h : preview reg order (fuel + 1) p A = .ok A') {q : Nat} (hq : q ∈ order)
    (hl : LinkND A' q p) : ∃ B B', preview reg order fuel q B = .ok B' ∧ Less B' A' ∧ Less A B := by
  rw [preview] at h
  cases hx : fixOne reg p A with
  | ub => rw [hx] at h; cases h
  | deep => rw [hx] at h; cases h
  | ok B =>
    rw [hx] at h
    have inner : ∀ x ∈ order, ∀ C C', (match C[x]? with
        | none => Out.ub
        | some nd => forEach (fun l A => if l = some p then preview reg order fuel x A else .ok A) (links nd) C) = .ok C' → Less C C' := by
      intro x _ C C' hC
      split at hC
      · cases hC
      · refine forEach_less ?_ C C' hC
        intro l _ D D' hD
        split_ifs at hD
        · exact preview_less _ _ _ _ hD
        · cases hD; exact Less.refl _
    obtain ⟨C, C', h1, h2, h3⟩ := forEach_mem inner B A' h q hq
    split at h2
    · cases h2
    · rename_i nd hnd
      have hCA : Less C A' := (inner q hq C C' (by simp only [hnd]; exact h2)).trans h3
      have hmem : some p ∈ links nd := mem_links.mpr ((linkND_iff hnd).mp (hCA.link hl))
      obtain ⟨D, D', h4, h5, h6⟩ := forEach_mem (l := links nd) (by
        intro l _ D D' hD
        split_ifs at hD
        · exact preview_less _ _ _ _ hD
        · cases hD; exact Less.refl _) C C' h2 (some p) hmem
      simp only [if_true] at h5
      exact ⟨D, D', h5, h6.trans h3, ((fixOne_less hx).trans h1).trans h4⟩

/-- Editing node `p` of a graph that fits and making its preview gives a graph that fits. -/
theorem edit_fits {reg : Reg} (hw : WarpFirst reg) {L order : List Nat} {fuel p : Nat} {A A' : Arena} {nd' : NodeData} (hlt : p < A.length)
    (hsh : Shaped reg nd') (hgood : ∀ q ∈ L, ∀ nd, A[q]? = some nd → Shaped reg nd) (hL : ∀ q ∈ L, q ∈ order) (hf : ∀ q ∈ L, Fits reg A q)
    (h : preview reg order fuel p (A.set p nd') = .ok A') : ∀ q ∈ L, Fits reg A' q := by
  intro q hq
  have hall : ∀ x ∈ L, ∀ nd, (A.set p nd')[x]? = some nd → Shaped reg nd := by
    intro x hx nd hnd
    by_cases e : x = p
    · subst e; rw [List.getElem?_set_self hlt] at hnd; cases hnd; exact hsh
    · rw [List.getElem?_set_ne (Ne.symm e)] at hnd; exact hgood x hx nd hnd
  have hself : ∀ nd, (A.set p nd')[p]? = some nd → Shaped reg nd := by
    intro nd hnd; rw [List.getElem?_set_self hlt] at hnd; cases hnd; exact hsh
  by_cases e : q = p
  · subst e; exact preview_fits hw fuel q _ _ hself h
  by_cases hl : LinkND A' q p
  · cases fuel with
    | zero => simp [preview] at h
    | succ f =>
      obtain ⟨B, B', h1, h2, h3⟩ := preview_users' h (hL q hq) hl
      refine (preview_fits hw f q B B' ?_ h1).less h2
      intro nd hnd
      obtain ⟨n0, g1, _⟩ := h3.kind hnd
      exact (hall q hq n0 g1).nless (h3.node q n0 nd g1 hnd)
  · -- `q` is untouched and does not use `p`
    have hless := preview_less _ _ _ _ h
    intro i c nd nc id cid m mc h1 h2 h3 h4 h5 h6 h7 h8
    have hcp : c ≠ p := fun ec => hl ⟨nd, h1, Or.inl (by rw [← ec]; exact List.mem_of_getElem? h5)⟩
    obtain ⟨nd0, g1, g2⟩ := hless.kind h1
    obtain ⟨nc0, g3, g4⟩ := hless.kind h6
    have hs := hless.node q nd0 nd g1 h1
    obtain ⟨l0, g5⟩ : ∃ x, nd0.lookups[i]? = some x := ⟨_, List.getElem?_eq_getElem (by rw [← hs.llen]; exact (List.getElem?_eq_some_iff.mp h5).1)⟩
    rw [List.getElem?_set_ne (Ne.symm e)] at g1
    rw [List.getElem?_set_ne (Ne.symm hcp)] at g3
    rcases hs.lk i _ _ g5 h5 with e' | ⟨e', _⟩
    · exact hf q hq i c nd0 nc0 id cid m mc g1 (by rw [← g2]; exact h2) h3 h4 (by rw [g5, e']) g3 (by rw [← g4]; exact h7) h8
    · cases e'

/-! ## Sessions -/

/-- All nodes of `mNodes` fit. -/
def AllFit (reg : Reg) (st : Ed) : Prop := ∀ q ∈ ptrs st, Fits reg st.arena q

theorem AllFit.less {reg : Reg} {st : Ed} (h : AllFit reg st) {A : Arena} (hl : Less st.arena A) : AllFit reg { st with arena := A } := fun q hq => (h q hq).less hl

theorem editNode_fits {reg : Reg} (hw : WarpFirst reg) {ρ fuel} {st st' : Ed} {p : Nat} {f : NodeData → Option NodeData} (hρ : IsOrder ρ) (h : Inv reg st) (hp : p ∈ ptrs st)
    (hfit : AllFit reg st) (hf : ∀ nd nd', st.arena[p]? = some nd → f nd = some nd' → Shaped reg nd') (e : editNode reg ρ fuel st p f = .ok st') : AllFit reg st' := by
  unfold editNode at e
  split at e
  · cases e
  · rename_i nd hnd
    split at e
    · cases e
    · rename_i nd' hnd'
      cases hv : preview reg ((ρ st.nodes).map (·.1)) fuel p (st.arena.set p nd') with
      | ub => rw [hv] at e; cases e
      | deep => rw [hv] at e; cases e
      | ok A =>
        rw [hv] at e
        simp only [Out.bind] at e
        cases e
        exact edit_fits hw (h.good.lt hp) (hf nd nd' hnd hnd') (fun q hq nd hn => shaped_of_live h.good hq hn) (fun q hq => (mem_order hρ).mpr hq) hfit hv

theorem addData_fits {reg : Reg} (hw : WarpFirst reg) {ρ fuel L} {st st' : Ed} {p : Nat} (h : Pre reg L st) (hp : p ∈ L) (hfit : AllFit reg st)
    (e : addData reg ρ fuel st p = .ok st') : AllFit reg st' := by
  unfold addData at e
  cases hf : freeId (st.nodes.map (·.2)) fuel st.counter with
  | none => rw [hf] at e; cases e
  | some id =>
    rw [hf] at e
    simp only at e
    cases hv : preview reg ((ρ st.nodes).map (·.1)) fuel p st.arena with
    | ub => rw [hv] at e; cases e
    | deep => rw [hv] at e; cases e
    | ok A =>
      rw [hv] at e
      simp only [Out.bind] at e
      cases e
      intro q hq
      rcases List.mem_cons.mp hq with rfl | hq
      · exact preview_fits hw _ _ _ _ (fun nd hn => shaped_of_live h.good hp hn) hv
      · exact (hfit q hq).less (preview_less _ _ _ _ hv)

theorem addAll_fits {reg : Reg} (hw : WarpFirst reg) {ρ fuel L} : ∀ (ps : List Nat) (st st' : Ed), Pre reg L st → (∀ p ∈ ps, p ∈ L) → ps.Nodup → (∀ p ∈ ps, p ∉ ptrs st) → AllFit reg st →
    addAll reg ρ fuel ps st = .ok st' → AllFit reg st' := by
  intro ps
  induction ps with
  | nil => intro st st' _ _ _ _ hfit e; simp only [addAll] at e; cases e; exact hfit
  | cons p ps ih =>
    intro st st' h hL hnd hd hfit e
    rw [addAll] at e
    cases ha : addData reg ρ fuel st p with
    | ub => rw [ha] at e; cases e
    | deep => rw [ha] at e; cases e
    | ok st1 =>
      rw [ha] at e
      obtain ⟨a1, a2, a3, _⟩ := addData_ok h (hL p (by simp)) (hd p (by simp)) ha
      obtain ⟨n1, n2⟩ := List.nodup_cons.mp hnd
      refine ih st1 st' a1 (fun q hq => hL q (by simp [hq])) n2 (by
        intro q hq hq'
        rw [a2] at hq'
        rcases List.mem_cons.mp hq' with rfl | hq'
        · exact n1 hq
        · exact hd q (by simp [hq]) hq') (addData_fits hw h (hL p (by simp)) hfit ha) e

/-- New heap objects do not concern the nodes already there. -/
theorem fits_append {reg : Reg} {st : Ed} (h : Inv reg st) (hfit : AllFit reg st) (nds : List NodeData) : AllFit reg { st with arena := st.arena ++ nds } := by
  intro q hq i c nd nc id cid m mc h1 h2 h3 h4 h5 h6 h7 h8
  have hlt := h.good.lt hq
  simp only at h1 h6
  rw [List.getElem?_append_left hlt] at h1
  have hc := h.good.lt (h.good.closed q hq c ⟨nd, h1, Or.inl (List.mem_of_getElem? h5)⟩)
  rw [List.getElem?_append_left hc] at h6
  exact hfit q hq i c nd nc id cid m mc h1 h2 h3 h4 h5 h6 h7 h8

theorem fits_kill {reg : Reg} {A : Arena} {x q : Nat} (hf : Fits reg A q) : Fits reg (kill A x) q := by
  intro i c nd nc id cid m mc h1 h2 h3 h4 h5 h6 h7 h8
  have aux : ∀ (y : Nat) (n : NodeData), (kill A x)[y]? = some n → n.md ≠ none → A[y]? = some n := by
    intro y n hn hne
    unfold kill at hn
    rw [List.getElem?_set] at hn
    split_ifs at hn
    · cases hn; exact absurd rfl hne
    · exact hn
  exact hf i c nd nc id cid m mc (aux _ _ h1 (by rw [h2]; simp)) h2 h3 h4 h5 (aux _ _ h6 (by rw [h7]; simp)) h7 h8

theorem fits_killAll {reg : Reg} {q : Nat} : ∀ (l : List (Nat × Nat)) (A : Arena), Fits reg A q → Fits reg (l.foldl (fun A n => kill A n.1) A) q := by
  intro l
  induction l with
  | nil => intro A h; exact h
  | cons n l ih => intro A h; exact ih _ (fits_kill h)

theorem step_fits {reg : Reg} (hr : FewLinks reg) (hw : WarpFirst reg) {ρ fuel} {st st' : Ed} {op : Op} (hρ : IsOrder ρ) (h : Inv reg st) (hp : Possible reg st op)
    (hd : IsAddDropped op → DropAlive st) (hfit : AllFit reg st) (e : step reg ρ fuel st op = .ok st') : AllFit reg st' := by
  cases op with
  | add md =>
    simp only [step] at e
    split at e
    · cases e; exact hfit
    · rename_i nd hnd
      obtain ⟨s1, s2, _⟩ := newNodeData_spec hnd
      have hpre := (pre_new h s1 s2).1
      exact addData_fits hw hpre (by simp) (fits_append h hfit _) e
  | addEncoded text =>
    simp only [step] at e
    split at e
    · cases e
    · cases e
    · cases e; exact hfit
    · rename_i root nds hnds
      obtain ⟨bytes, hb, _⟩ := Base64.C02_decode_safe text hp
      simp only [deserialiseNodeData, hb] at hnds
      have hacy := (C07_nodedata_acyclic reg bytes root nds hnds).1
      have hval : ∀ n ∈ nds, Shaped reg n := by
        rcases C06_decode_nodedata_total reg bytes with h0 | ⟨r, n, h1, h2⟩
        · rw [h0] at hnds; cases hnds
        · rw [h1] at hnds; cases hnds
          intro n hn
          exact h2.shape n hn
      obtain ⟨a, b, c⟩ := pre_append h hval hacy
      exact addAll_fits hw _ _ _ a (fun p hp => List.mem_append_left _ hp) c b (fits_append h hfit _) e
  | link s e' attr snap =>
    simp only [step] at e
    split at e
    · rename_i ps pe h1 h2
      split at e
      · cases e
      · rename_i l hl
        split_ifs at e
        · refine editNode_fits hw hρ h (find_ptr h2) hfit ?_ e
          intro nd nd' hn hn'
          obtain ⟨k, hk, rfl⟩ := hp pe nd (find_mem h2) hn
          obtain ⟨nd'', a1, a2, a3, _⟩ := link_edit (ps := ps) hr h (find_mem h2) hn hk
          rw [a1] at hn'; cases hn'
          exact a2
        · cases e; exact hfit
    · cases e; exact hfit
  | unlink attr =>
    simp only [step, unlink_eq] at e
    cases hv : forEach (unlinkBody reg ((ρ st.nodes).map (·.1)) fuel attr) (ρ st.nodes) st.arena with
    | ub => rw [hv] at e; cases e
    | deep => rw [hv] at e; cases e
    | ok A =>
      rw [hv] at e; cases e
      exact hfit.less (forEach_less (fun n _ A A' h => unlinkBody_less h) _ _ hv)
  | delete id =>
    simp only [step] at e
    split at e
    · rename_i p h1
      rw [delete_eq] at e
      cases hv : forEach (deleteBody reg ((ρ (st.nodes.filter fun n => n.1 ≠ p)).map (·.1)) fuel p) (ρ (st.nodes.filter fun n => n.1 ≠ p)) (kill st.arena p) with
      | ub => rw [hv] at e; cases e
      | deep => rw [hv] at e; cases e
      | ok A =>
        rw [hv] at e; cases e
        intro q hq
        refine (fits_kill (hfit q (filter_ptrs.mp hq).1)).less (forEach_less (fun n _ A A' h => deleteBody_less h) _ _ hv)
    · cases e; exact hfit
  | convert id md same =>
    simp only [step] at e
    split at e
    · rename_i p _ h1 _
      refine editNode_fits hw hρ h (find_ptr h1) hfit ?_ e
      intro nd nd' hn hn'
      exact (converted_spec hn').1
    · cases e; exact hfit
  | setVar id i v =>
    simp only [step] at e
    split at e
    · rename_i p h1
      refine editNode_fits hw hρ h (find_ptr h1) hfit ?_ e
      intro nd nd' hn hn'
      split_ifs at hn'
      cases hn'
      exact (setVar_spec (shaped_of_live h.good (find_ptr h1) hn) i v).1
    · cases e; exact hfit
  | setHybrid id i v =>
    simp only [step] at e
    split at e
    · rename_i p h1
      refine editNode_fits hw hρ h (find_ptr h1) hfit ?_ e
      intro nd nd' hn hn'
      rw [Option.map_eq_some_iff] at hn'
      obtain ⟨x, hx, rfl⟩ := hn'
      exact (setHybrid_spec (shaped_of_live h.good (find_ptr h1) hn) i v x hx).1
    · cases e; exact hfit
  | drop attr =>
    simp only [step] at e
    split at e
    · split_ifs at e <;> cases e
      · exact hfit
      · exact hfit
    · cases e; exact hfit
  | addDropped md =>
    simp only [step] at e
    split at e
    · cases e; exact hfit
    · rename_i nd hnd
      obtain ⟨s1, s2, _⟩ := newNodeData_spec hnd
      cases ha : addData reg ρ fuel { st with arena := st.arena ++ [nd] } st.arena.length with
      | ub => rw [ha] at e; cases e
      | deep => rw [ha] at e; cases e
      | ok st1 =>
        rw [ha] at e
        simp only [Out.bind] at e
        obtain ⟨b1, b2, b3, b4⟩ := addNew_ok h s1 s2 ha
        have hm : st.arena.length ∈ ptrs st1 := by rw [b2]; simp
        have hfit1 : AllFit reg st1 := addData_fits hw (pre_new h s1 s2).1 (by simp) (fits_append h hfit _) ha
        refine editNode_fits hw hρ b1 hm hfit1 ?_ e
        intro n n' hn hn'
        have hsh := shaped_of_live b1.good hm hn
        have hlen : 0 < (links n).length := by
          obtain ⟨_, _, m, hm, hl⟩ := newNodeData_spec hnd
          have hs := b4.node st.arena.length nd n (by simp) hn
          rw [NLess.llinks hs, hl]; exact hp m hm
        obtain ⟨n'', c0, c1, c2, c3, c4, c5⟩ := setLink0 hlen (hsh.few hr) st.dropped
        rw [c0] at hn'; cases hn'
        exact hsh.of_setLink c1 c2 c3 c4
  | bench id =>
    simp only [step] at e
    split at e
    · rename_i p h1
      cases hf : fixOne reg p st.arena with
      | ub => rw [hf] at e; cases e
      | deep => rw [hf] at e; cases e
      | ok A => rw [hf] at e; cases e; exact hfit.less (fixOne_less hf)
    · cases e; exact hfit
  | clear =>
    simp only [step] at e; cases e
    intro q hq; simp [ptrs] at hq

/-- Reached sources fit when every node fits. -/
theorem sourcesFit_of {reg : Reg} {L : List Nat} {A : Arena} (hg : Good reg L A) (h : ∀ q ∈ L, Fits reg A q) {p : Nat} (hp : p ∈ L) : SourcesFit reg A p := by
  intro q i c nd nc id cid m k mc hr h1 h2 h3 h4 h5 h6 h7 h8 hk
  subst hk
  exact h q (hg.reach hp hr) i c nd nc id cid m mc h1 h2 h3 h4 h5 h6 h7 h8

end FastNoise.Editor
