import Verif.EditorViewSpec
import Verif.EditorTextProps
/-! # What is shown: one preview (lemmas for C55) -/
namespace FastNoise.Editor
open FastNoise.Ser FastNoise.Stream FastNoise.Deser FastNoise.Spec FastNoise.RT FastNoise.Registry
open Relation

/-- The text of a node. -/
def tx (reg : Reg) (A : Arena) (q : Nat) : List UInt8 :=
  match serialise reg false A q with
  | .text t _ => t
  | _ => []

structure EnvOK (E : Env) : Prop where
  reg : RegOK E.reg
  cd : CdOK E.reg E.cd
  few : FewLinks E.reg
  warp : WarpFirst E.reg

/-- The graph on `L` is one the library can serialise as it is. -/
structure Ready (E : Env) (L : List Nat) (A : Arena) : Prop where
  live : ∀ p ∈ L, ∃ nd, A[p]? = some nd ∧ Shaped E.reg nd
  closed : ∀ p ∈ L, ∀ c, LinkND A p c → c ∈ L
  loops : NoLoops L A
  fit : ∀ q ∈ L, Fits E.reg A q
  size : A.length < 2 ^ 54
  few : L.length ≤ 65536

/-- The preview of `q` changes nothing and gives the text `τ q`. -/
def Stable (E : Env) (A : Arena) (τ : Nat → List UInt8) (q : Nat) : Prop := serialise E.reg true A q = .text (τ q) A ∧ (τ q ≠ [] → builds E (τ q) = .ok true)

theorem builds_nil (E : Env) : builds E [] = .ok false := rfl

theorem builds_text {E : Env} (hE : EnvOK E) {A : Arena} {q : Nat} (hm : HasMetadata E.reg A q) (hac : AcyclicFrom A q) (hfit : SourcesFit E.reg A q) (h16 : AtMost 65536 A q) (hsz : A.length < 2 ^ 54) :
    serialise E.reg true A q = .text (tx E.reg A q) A ∧ serialise E.reg false A q = .text (tx E.reg A q) A ∧ (tx E.reg A q ≠ [] → builds E (tx E.reg A q) = .ok true) := by
  obtain ⟨t, t1, t2⟩ := C10_fixup_harmless E.reg hE.reg A q hm hsz hac hfit
  have e : tx E.reg A q = t := by unfold tx; rw [t2]
  rw [e]
  refine ⟨t1, t2, fun hne => ?_⟩
  have hp : PointersValid E.reg A q := by
    intro p hp
    obtain ⟨nd, id, m, a1, a2, a3⟩ := hm p hp
    exact ⟨nd, a1, fun id' hid' => by rw [a2] at hid'; cases hid'; exact ⟨m, a3⟩⟩
  obtain ⟨t', u1, u2⟩ := C09_serialise_total_iff E.reg hE.reg A q hp hac hsz
  rw [t2] at u1
  have e1 := (SerOut.text.inj u1).1
  rw [← e1] at u2
  have hc := u2.mp hne
  have hT : Typed (Accepts E.reg) A q := by
    intro p i c nd nc id cid hr hA hid hl hAc hcid
    obtain ⟨nd', id', m, w1, w2, w3, _, w5, _⟩ := hc p hr
    rw [hA] at w1; cases w1
    rw [hid] at w2; cases w2
    have hrc : Reach A q c := Relation.ReflTransGen.tail hr (linkND_lookup hA (List.mem_of_getElem? hl))
    obtain ⟨nc', cid', mc, v1, v2, v3, _⟩ := hc c hrc
    rw [hAc] at v1; cases v1
    rw [hcid] at v2; cases v2
    have hi : i < m.lookups.length := by
      have := (List.getElem?_eq_some_iff.mp hl).1
      omega
    have hk := List.getElem?_eq_getElem hi
    refine ⟨m, _, mc, w3, hk, v3, ?_⟩
    have := hfit p i c nd nc id cid m _ mc hr hA hid w3 hk hl hAc hcid v3
    cases hkk : m.lookups[i] with
    | any => rfl
    | warp => rw [hkk] at this; exact this rfl
  obtain ⟨text, stream, refs, k, out, h1, h2, h3, _⟩ := roundtrip_core (sn_mk E.reg E.cd hE.cd) hE.reg hp hac hT hc h16
  rw [t2] at h1
  have e2 := (SerOut.text.inj h1).1
  rw [← e2] at h2
  unfold builds
  simp only [newFromEncodedNodeTree, h2, decodeSN, h3]

theorem Ready.reach {E : Env} {L : List Nat} {A : Arena} (h : Ready E L A) {p q : Nat} (hp : p ∈ L) (hr : Reach A p q) : q ∈ L := by
  induction hr with
  | refl => exact hp
  | tail _ hl ih => exact h.closed _ ih _ hl

theorem Ready.facts {E : Env} {L : List Nat} {A : Arena} (h : Ready E L A) {q : Nat} (hq : q ∈ L) :
    HasMetadata E.reg A q ∧ AcyclicFrom A q ∧ SourcesFit E.reg A q ∧ AtMost 65536 A q := by
  refine ⟨fun r hr => ?_, fun r hr => h.loops r (h.reach hq hr), ?_, ⟨L, h.few, fun r hr => h.reach hq hr⟩⟩
  · obtain ⟨nd, a1, id, m, a2, a3, _⟩ := h.live r (h.reach hq hr)
    exact ⟨nd, id, m, a1, a2, a3⟩
  · intro r i c nd nc id cid m k mc hr h1 h2 h3 h4 h5 h6 h7 h8 hk
    subst hk
    exact h.fit r (h.reach hq hr) i c nd nc id cid m mc h1 h2 h3 h4 h5 h6 h7 h8

theorem Ready.lt {E : Env} {L : List Nat} {A : Arena} (h : Ready E L A) {p : Nat} (hp : p ∈ L) : p < A.length := by
  obtain ⟨nd, a1, _⟩ := h.live p hp
  exact (List.getElem?_eq_some_iff.mp a1).1

theorem Ready.text {E : Env} (hE : EnvOK E) {L : List Nat} {A : Arena} (h : Ready E L A) {q : Nat} (hq : q ∈ L) :
    serialise E.reg true A q = .text (tx E.reg A q) A ∧ serialise E.reg false A q = .text (tx E.reg A q) A ∧ (tx E.reg A q ≠ [] → builds E (tx E.reg A q) = .ok true) :=
  builds_text hE (h.facts hq).1 (h.facts hq).2.1 (h.facts hq).2.2.1 (h.facts hq).2.2.2 h.size

theorem Ready.stable {E : Env} (hE : EnvOK E) {L : List Nat} {A : Arena} (h : Ready E L A) {q : Nat} (hq : q ∈ L) : Stable E A (tx E.reg A) q :=
  ⟨(h.text hE hq).1, (h.text hE hq).2.2⟩

/-- Nodes that see the same tree have the same text. -/
theorem reach_agree {A B : Arena} {q : Nat} (h : ∀ r, Reach A q r → B[r]? = A[r]?) {r : Nat} : Reach B q r → Reach A q r := by
  intro hr
  induction hr with
  | refl => exact .refl
  | tail _ hl ih =>
    obtain ⟨n, hn, hc⟩ := hl
    rw [h _ ih] at hn
    exact ih.tail ⟨n, hn, hc⟩

theorem iso_agree {reg : Reg} {A B : Arena} {q : Nat} (h : ∀ r, Reach A q r → B[r]? = A[r]?) : Iso reg id (Reach A q) A B where
  inj _ _ _ _ e := e
  closed p c hp hl := hp.tail hl
  node p n hp hn := ⟨n, by rw [id, h p hp]; exact hn, rfl, fun id m _ _ => ⟨rfl, by simp, rfl, fun i x y h1 h2 => by rw [h1] at h2; cases h2; exact ⟨by simp, fun _ _ _ => Or.inr rfl⟩⟩, rfl⟩

theorem agree_facts {E : Env} {A B : Arena} {q : Nat} (hm : HasMetadata E.reg A q) (hac : AcyclicFrom A q) (hfit : SourcesFit E.reg A q)
    (h16 : AtMost 65536 A q) (h : ∀ r, Reach A q r → B[r]? = A[r]?) : HasMetadata E.reg B q ∧ AcyclicFrom B q ∧ SourcesFit E.reg B q ∧ AtMost 65536 B q := by
  have hr : ∀ r, Reach B q r → Reach A q r := fun r => reach_agree h
  refine ⟨fun r hb => ?_, fun r hb ht => ?_, ?_, ?_⟩
  · rw [h r (hr r hb)]; exact hm r (hr r hb)
  · refine hac r (hr r hb) ?_
    have key : ∀ {x y}, TransGen (LinkND B) x y → Reach A q x → TransGen (LinkND A) x y := by
      intro x y hxy hx
      induction hxy with
      | single hl =>
        obtain ⟨n, hn, hc⟩ := hl
        rw [h _ hx] at hn
        exact .single ⟨n, hn, hc⟩
      | tail _ hl ih =>
        obtain ⟨n, hn, hc⟩ := hl
        have : Reach A q _ := hx.trans ih.to_reflTransGen
        rw [h _ this] at hn
        exact ih.tail ⟨n, hn, hc⟩
    exact key ht (hr r hb)
  · intro r i c nd nc id cid m k mc h0 h1 h2 h3 h4 h5 h6 h7 h8
    have hra := hr r h0
    have hrc : Reach A q c := hr c (h0.tail (linkND_lookup h1 (List.mem_of_getElem? h5)))
    rw [h r hra] at h1
    rw [h c hrc] at h6
    exact hfit r i c nd nc id cid m k mc hra h1 h2 h3 h4 h5 h6 h7 h8
  · obtain ⟨l, l1, l2⟩ := h16
    exact ⟨l, l1, fun r hb => l2 r (hr r hb)⟩

theorem tx_agree {E : Env} (hE : EnvOK E) {A B : Arena} {q : Nat} (hm : HasMetadata E.reg A q) (hac : AcyclicFrom A q) (hfit : SourcesFit E.reg A q)
    (h16 : AtMost 65536 A q) (hA : A.length < 2 ^ 54) (hB : B.length < 2 ^ 54) (h : ∀ r, Reach A q r → B[r]? = A[r]?) : tx E.reg B q = tx E.reg A q ∧ Stable E B (tx E.reg A) q := by
  obtain ⟨b1, b2, b3, b4⟩ := agree_facts hm hac hfit h16 h
  obtain ⟨_, u2, _⟩ := builds_text hE hm hac hfit h16 hA
  obtain ⟨v1, v2, v3⟩ := builds_text hE b1 b2 b3 b4 hB
  have w := serialise_iso (iso_agree (reg := E.reg) h) (p := q) .refl u2 v2
  simp only [id] at w
  rw [v2] at w
  have e := (SerOut.text.inj w).1
  exact ⟨e, by rw [e] at v1 v3; exact ⟨v1, v3⟩⟩

theorem Ready.agree {E : Env} (hE : EnvOK E) {L : List Nat} {A B : Arena} (h : Ready E L A) {q : Nat} (hq : q ∈ L) (hB : B.length < 2 ^ 54) (hab : ∀ r, Reach A q r → B[r]? = A[r]?) :
    tx E.reg B q = tx E.reg A q ∧ Stable E B (tx E.reg A) q :=
  tx_agree hE (h.facts hq).1 (h.facts hq).2.1 (h.facts hq).2.2.1 (h.facts hq).2.2.2 h.size hB hab

/-! ## Steps of the view -/

/-- `v'` is `v` with some texts of nodes in `U` made current, and the tree in use possibly that of the selected node. -/
structure Up (E : Env) (order : List Nat) (τ : Nat → List UInt8) (U : Nat → Prop) (v v' : View) : Prop where
  sel : v'.selected = v.selected
  txt : ∀ q, v'.text q = v.text q ∨ (U q ∧ v'.text q = τ q)
  use : (v'.active = v.active ∧ v'.sent = v.sent ∧ v'.picture = v.picture) ∨ ∃ s, v.selected = some s ∧ s ∈ order ∧ U s ∧ τ s ≠ [] ∧ InUse E.detached (τ s) v'

variable {E : Env} {order : List Nat} {τ : Nat → List UInt8} {U : Nat → Prop}

theorem Up.refl (v : View) : Up E order τ U v v := ⟨rfl, fun _ => Or.inl rfl, Or.inl ⟨rfl, rfl, rfl⟩⟩

theorem InUse.same {d : Bool} {t : List UInt8} {v v' : View} (h : InUse d t v) (e : v'.active = v.active ∧ v'.sent = v.sent ∧ v'.picture = v.picture) : InUse d t v' := by
  obtain ⟨e1, e2, e3⟩ := e
  unfold InUse; rw [e1, e2, e3]; exact h

theorem Up.trans {v v' v'' : View} (h : Up E order τ U v v') (h' : Up E order τ U v' v'') : Up E order τ U v v'' where
  sel := h'.sel.trans h.sel
  txt q := by
    rcases h'.txt q with e | e
    · rw [e]; exact h.txt q
    · exact Or.inr e
  use := by
    rcases h'.use with e | ⟨s, a, b, c, d, e⟩
    · rcases h.use with f | ⟨s, a, b, c, d, f⟩
      · exact Or.inl ⟨e.1.trans f.1, e.2.1.trans f.2.1, e.2.2.trans f.2.2⟩
      · exact Or.inr ⟨s, a, b, c, d, f.same e⟩
    · rw [h.sel] at a; exact Or.inr ⟨s, a, b, c, d, e⟩

/-- `q` is up to date. -/
def Done (E : Env) (tree : Bool) (order : List Nat) (τ : Nat → List UInt8) (q : Nat) (v : View) : Prop :=
  v.text q = τ q ∧ (tree = true → v.selected = some q → q ∈ order → τ q ≠ [] → InUse E.detached (τ q) v)

theorem Done.up {tree : Bool} {v v' : View} {q : Nat} (h : Done E tree order τ q v) (hu : Up E order τ U v v') : Done E tree order τ q v' := by
  refine ⟨?_, fun ht hs ho hne => ?_⟩
  · rcases hu.txt q with e | e
    · rw [e]; exact h.1
    · exact e.2
  · rw [hu.sel] at hs
    rcases hu.use with e | ⟨s, a, b, c, d, e⟩
    · exact (h.2 ht hs ho hne).same e
    · rw [hs] at a; cases a; exact e

theorem loop_rel {α σ : Type} {f : α → σ → Out σ} {R : σ → σ → Prop} {I : σ → Prop} {D : α → σ → Prop} (hrefl : ∀ s, R s s) (htrans : ∀ a b c, R a b → R b c → R a c)
    (hD : ∀ x s s', R s s' → D x s → D x s') : ∀ (l : List α), (∀ x ∈ l, ∀ s s', I s → f x s = .ok s' → I s' ∧ R s s' ∧ D x s') → ∀ s s', I s → loop f l s = .ok s' → I s' ∧ R s s' ∧ ∀ x ∈ l, D x s' := by
  intro l
  induction l with
  | nil => intro _ s s' hI h; simp only [loop, Out.ok.injEq] at h; subst h; exact ⟨hI, hrefl _, by simp⟩
  | cons x xs ih =>
    intro hf s s' hI h
    rw [loop] at h
    cases hx : f x s with
    | ub => rw [hx] at h; cases h
    | deep => rw [hx] at h; cases h
    | ok s1 =>
      rw [hx] at h
      obtain ⟨a1, a2, a3⟩ := hf x (by simp) s s1 hI hx
      obtain ⟨b1, b2, b3⟩ := ih (fun y hy => hf y (by simp [hy])) s1 s' a1 h
      refine ⟨b1, htrans _ _ _ a2 b2, fun y hy => ?_⟩
      rcases List.mem_cons.mp hy with rfl | hy
      · exact hD _ _ _ b2 a3
      · exact b3 y hy

theorem renew_stable {A : Arena} {q : Nat} (h : Stable E A τ q) (v : View) : renew E q (A, v) = .ok (A, v.setText q (τ q)) := by
  unfold renew
  rw [h.1]
  simp only
  by_cases e : τ q = []
  · rw [e, builds_nil]; rfl
  · rw [h.2 e]; rfl

theorem setText_up {v : View} {p : Nat} (hp : U p) : Up E order τ U v (v.setText p (τ p)) where
  sel := rfl
  txt q := by
    unfold View.setText
    by_cases e : q = p
    · subst e; exact Or.inr ⟨hp, by simp⟩
    · exact Or.inl (by simp [e])
  use := Or.inl ⟨rfl, rfl, rfl⟩

theorem setText_same (v : View) (p : Nat) : v.setText p (v.text p) = v := by
  unfold View.setText
  congr 1
  funext q
  by_cases e : q = p
  · subst e; simp
  · simp [e]

/-- Selecting a node whose text is made of a generator. -/
theorem changeSelected_spec {shown : List Nat} {p : Nat} {v v' : View} (hb : v.text p ≠ [] → builds E (v.text p) = .ok true) (h : changeSelected E shown p v = .ok v') :
    v'.selected = some p ∧ v'.text = v.text ∧
      ((p ∈ shown ∧ v.text p ≠ [] ∧ InUse E.detached (v.text p) v') ∨ ((p ∉ shown ∨ v.text p = []) ∧ v'.active = v.active ∧ v'.sent = v.sent ∧ v'.picture = v.picture)) := by
  unfold changeSelected at h
  simp only [selText] at h
  by_cases hs : p ∈ shown
  · rw [if_pos hs] at h
    by_cases hn : v.text p = []
    · rw [hn] at h
      simp only [ne_eq, not_true_eq_false, if_false, Out.ok.injEq] at h
      subst h
      exact ⟨rfl, rfl, Or.inr ⟨Or.inr hn, rfl, rfl, rfl⟩⟩
    · rw [if_pos (by exact hn)] at h
      unfold setPreview at h
      rw [hb hn] at h
      simp only [Out.bind, if_true, ne_eq, hn, not_false_eq_true, Out.ok.injEq] at h
      subst h
      by_cases hd : E.detached = true
      · simp only [hd, if_true, setActive, selText, if_pos hs]
        exact ⟨if_neg (fun h => h rfl), trivial, Or.inl ⟨hs, hn, rfl, rfl, fun e => by cases e⟩⟩
      · simp only [hd, setActive, selText, if_pos hs, if_false, Bool.false_eq_true]
        exact ⟨if_neg (fun h => h rfl), trivial, Or.inl ⟨hs, hn, rfl, rfl, fun _ => rfl⟩⟩
  · rw [if_neg hs] at h
    simp only [ne_eq, not_true_eq_false, if_false, Out.ok.injEq] at h
    subst h
    exact ⟨rfl, rfl, Or.inr ⟨Or.inl hs, rfl, rfl, rfl⟩⟩

/-- Links between nodes that are looked at. -/
def OLink (order : List Nat) (A : Arena) (a b : Nat) : Prop := a ∈ order ∧ LinkND A a b

/-- The rest of a preview after the text of `p` was made. -/
theorem preview_tail {tree : Bool} {A : Arena} {fuel p : Nat} (hU : ∀ q, U q → Stable E A τ q) (hcl : ∀ q c, q ∈ order → U c → LinkND A q c → U q) (hp : U p)
    (rec : ∀ q v r, U q → previewV E tree order fuel q (A, v) = .ok r → r.1 = A ∧ Up E order τ U v r.2 ∧ ∀ x, ReflTransGen (OLink order A) x q → Done E tree order τ x r.2)
    {v : View} (hv : v.text p = τ p) {r : Arena × View}
    (h : ((loop (fun q s =>
        match s.1[q]? with
        | none => .ub
        | some nd => loop (fun l s => if l = some p then previewV E tree order fuel q s else .ok s) (links nd) s) order (A, v)).bind fun s =>
          if tree = true then
            (if s.2.selected = some p then changeSelected E order p s.2 else .ok s.2).bind fun v => .ok (s.1, { v with dirty := true })
          else .ok s) = .ok r) :
    r.1 = A ∧ Up E order τ U v r.2 ∧ ∀ x, ReflTransGen (OLink order A) x p → Done E tree order τ x r.2 := by
  cases hl : loop (fun q s =>
        match s.1[q]? with
        | none => .ub
        | some nd => loop (fun l s => if l = some p then previewV E tree order fuel q s else .ok s) (links nd) s) order (A, v) with
  | ub => rw [hl] at h; cases h
  | deep => rw [hl] at h; cases h
  | ok s1 =>
    rw [hl] at h
    simp only [Out.bind] at h
    have inner : ∀ q ∈ order, ∀ (nd : NodeData), A[q]? = some nd → ∀ l ∈ links nd, ∀ s s' : Arena × View, s.1 = A → (if l = some p then previewV E tree order fuel q s else Out.ok s) = .ok s' →
        s'.1 = A ∧ Up E order τ U s.2 s'.2 ∧ (l = some p → ∀ x, ReflTransGen (OLink order A) x q → Done E tree order τ x s'.2) := by
      intro q hq nd hn l hl s s' hI hs
      obtain ⟨C, w'⟩ := s
      simp only at hI; subst hI
      by_cases e : l = some p
      · rw [if_pos e] at hs
        subst e
        obtain ⟨c1, c2, c3⟩ := rec q w' s' (hcl q p hq hp ⟨nd, hn, mem_links.mp hl⟩) hs
        exact ⟨c1, c2, fun _ => c3⟩
      · rw [if_neg e, Out.ok.injEq] at hs
        subst hs
        exact ⟨rfl, Up.refl _, fun e' => absurd e' e⟩
    have outer : ∀ q ∈ order, ∀ s s' : Arena × View, s.1 = A → (match s.1[q]? with
        | none => Out.ub
        | some nd => loop (fun l s => if l = some p then previewV E tree order fuel q s else .ok s) (links nd) s) = .ok s' →
        s'.1 = A ∧ Up E order τ U s.2 s'.2 ∧ (LinkND A q p → ∀ x, ReflTransGen (OLink order A) x q → Done E tree order τ x s'.2) := by
      intro q hq s s' hI hs
      rw [hI] at hs
      cases hn : A[q]? with
      | none => rw [hn] at hs; cases hs
      | some nd =>
        rw [hn] at hs
        simp only at hs
        obtain ⟨b1, b2, b3⟩ := loop_rel (R := fun s s' : Arena × View => Up E order τ U s.2 s'.2) (I := fun s => s.1 = A)
          (D := fun l s => l = some p → ∀ x, ReflTransGen (OLink order A) x q → Done E tree order τ x s.2) (fun s => Up.refl _) (fun _ _ _ => Up.trans)
          (fun l s s' hR hD hl x hx => (hD hl x hx).up hR) (links nd) (inner q hq nd hn) s s' hI hs
        refine ⟨b1, b2, fun ⟨n, hn', hc⟩ => ?_⟩
        rw [hn] at hn'; cases hn'
        exact b3 (some p) (mem_links.mpr hc) rfl
    obtain ⟨a1, a2, a3⟩ := loop_rel (R := fun s s' : Arena × View => Up E order τ U s.2 s'.2) (I := fun s => s.1 = A)
      (D := fun q s => LinkND A q p → ∀ x, ReflTransGen (OLink order A) x q → Done E tree order τ x s.2) (fun s => Up.refl _) (fun _ _ _ => Up.trans)
      (fun q s s' hR hD hl x hx => (hD hl x hx).up hR) order outer (A, v) s1 rfl hl
    obtain ⟨B, w⟩ := s1
    simp only at a1 a2 a3 h
    subst a1
    have hwp : w.text p = τ p := by
      rcases a2.txt p with e | e
      · rw [e]; exact hv
      · exact e.2
    have fin : r.1 = B ∧ Up E order τ U w r.2 ∧ Done E tree order τ p r.2 := by
      by_cases ht : tree = true
      · rw [if_pos ht] at h
        by_cases hc : w.selected = some p
        · rw [if_pos hc] at h
          cases hcs : changeSelected E order p w with
          | ub => rw [hcs] at h; cases h
          | deep => rw [hcs] at h; cases h
          | ok w' =>
            rw [hcs] at h
            simp only [Out.bind, Out.ok.injEq] at h
            subst h
            obtain ⟨d1, d2, d3⟩ := changeSelected_spec (by rw [hwp]; exact (hU p hp).2) hcs
            rw [hwp] at d3
            refine ⟨rfl, ⟨by simp only [d1, hc], fun q => Or.inl (by simp only [d2]), ?_⟩, by simp only [d2]; exact hwp, fun _ _ ho hne => ?_⟩
            · rcases d3 with ⟨e1, e2, e3⟩ | e
              · exact Or.inr ⟨p, hc, e1, hp, e2, e3⟩
              · exact Or.inl e.2
            · rcases d3 with ⟨e1, e2, e3⟩ | ⟨e, _⟩
              · exact e3
              · rcases e with e | e
                · exact absurd ho e
                · exact absurd e hne
        · rw [if_neg hc] at h
          simp only [Out.bind, Out.ok.injEq] at h
          subst h
          exact ⟨rfl, ⟨rfl, fun q => Or.inl rfl, Or.inl ⟨rfl, rfl, rfl⟩⟩, hwp, fun _ hs => absurd hs hc⟩
      · rw [if_neg ht] at h
        simp only [Out.ok.injEq] at h
        subst h
        exact ⟨rfl, Up.refl _, hwp, fun ht' _ => absurd ht' ht⟩
    refine ⟨fin.1, a2.trans fin.2.1, fun x hx => ?_⟩
    rcases ReflTransGen.cases_tail hx with e | ⟨y, hxy, hyp⟩
    · subst e; exact fin.2.2
    · exact (a3 y hyp.1 hyp.2 x hxy).up fin.2.1

theorem preview_stable {tree : Bool} {A : Arena} (hU : ∀ q, U q → Stable E A τ q) (hcl : ∀ q c, q ∈ order → U c → LinkND A q c → U q) : ∀ (fuel p : Nat) (v : View) (r : Arena × View), U p →
    previewV E tree order fuel p (A, v) = .ok r → r.1 = A ∧ Up E order τ U v r.2 ∧ ∀ x, ReflTransGen (OLink order A) x p → Done E tree order τ x r.2 := by
  intro fuel
  induction fuel with
  | zero => intro p v r _ h; simp [previewV] at h
  | succ f ih =>
    intro p v r hp h
    rw [previewV, renew_stable (hU p hp)] at h
    simp only [Out.bind] at h
    obtain ⟨a, b, c⟩ := preview_tail (tree := tree) (fuel := f) hU hcl hp ih (v := v.setText p (τ p)) (by simp [View.setText]) h
    exact ⟨a, (setText_up hp).trans b, c⟩

/-- A preview whose first step repairs the graph. -/
theorem preview_after {tree : Bool} {A A' : Arena} (hU : ∀ q, U q → Stable E A τ q) (hcl : ∀ q c, q ∈ order → U c → LinkND A q c → U q) {fuel p : Nat} {v : View} {r : Arena × View} (hp : U p)
    (hr : renew E p (A', v) = .ok (A, v.setText p (τ p))) (h : previewV E tree order fuel p (A', v) = .ok r) :
    r.1 = A ∧ Up E order τ U v r.2 ∧ ∀ x, ReflTransGen (OLink order A) x p → Done E tree order τ x r.2 := by
  cases fuel with
  | zero => simp [previewV] at h
  | succ f =>
    rw [previewV, hr] at h
    simp only [Out.bind] at h
    obtain ⟨a, b, c⟩ := preview_tail (tree := tree) (fuel := f) hU hcl hp (fun q v r => preview_stable hU hcl f q v r) (v := v.setText p (τ p)) (by simp [View.setText]) h
    exact ⟨a, (setText_up hp).trans b, c⟩

end FastNoise.Editor
