import Verif.SerIso
import Verif.CanonSpec
/-! # Lemmas for C54 -/
namespace FastNoise.RT
open FastNoise.Ser FastNoise.Stream FastNoise.Deser FastNoise.Spec FastNoise.Registry
open Relation

theorem feq_self {v d : UInt32} (h : feq v d = true) : feq d d = true := by
  unfold feq at h ⊢
  simp only [Bool.and_eq_true, Bool.not_eq_true'] at h
  simp [h.1.2]

theorem expHyb_value (g : Nat → Option Nat) : ∀ (cs : List UInt32) (hs : List (Option Nat × UInt32)), hs.length = cs.length → (expHyb g cs cs hs).length = hs.length ∧
    ∀ (i : Nat) h d, hs[i]? = some h → cs[i]? = some d → (expHyb g cs cs hs)[i]? = some (match h.1 with
      | some p => (g p, d)
      | none => (none, if feq h.2 d then d else h.2)) := by
  intro cs
  induction cs with
  | nil =>
    intro hs h
    have : hs = [] := List.length_eq_zero_iff.mp h
    subst this; simp [expHyb]
  | cons c cs ih =>
    intro hs hl
    match hs, hl with
    | (l, v) :: hs, hl =>
      simp only [List.length_cons, Nat.add_right_cancel_iff] at hl
      obtain ⟨h1, h2⟩ := ih hs hl
      cases l with
      | some p =>
        refine ⟨by simp [expHyb, h1], fun i h d a b => ?_⟩
        cases i with
        | zero => simp at a b; subst a; subst b; simp [expHyb]
        | succ i => simpa [expHyb] using h2 i h d (by simpa using a) (by simpa using b)
      | none =>
        refine ⟨by simp [expHyb, h1], fun i h d a b => ?_⟩
        cases i with
        | zero => simp at a b; subst a; subst b; simp [expHyb]
        | succ i => simpa [expHyb] using h2 i h d (by simpa using a) (by simpa using b)

/-- What a decoded node looks like. -/
structure Decoded (reg : Reg) (φ : Nat → Nat) (n n' : NodeData) : Prop where
  md : n'.md = n.md
  vars : n'.vars = n.vars
  lookups : n'.lookups = n.lookups.map (Option.map φ)
  hlen : n'.hybrids.length = n.hybrids.length
  hyb : ∀ (id : Nat) m (i : Nat) h d, n.md = some id → reg[id]? = some m → m.hybrids[i]? = some d → n.hybrids[i]? = some h →
    n'.hybrids[i]? = some (match h.1 with
      | some p => (some (φ p), d)
      | none => (none, if feq h.2 d then d else h.2))

theorem decode_exact {reg : Reg} (hreg : RegOK reg) {A : Arena} {root : Nat} (hE : Encodable reg A root) :
    ∃ text root' B φ, serialise reg false A root = .text text A ∧ text ≠ [] ∧ deserialiseNodeData reg text = .tree root' B ∧ φ root = root' ∧
      (∀ p q, Reach A root p → Reach A root q → φ p = φ q → p = q) ∧
      (∀ p n, Reach A root p → A[p]? = some n → ∃ n', B[φ p]? = some n' ∧ Decoded reg φ n n') ∧
      (∀ k, k < B.length → ∃ p, Reach A root p ∧ φ p = k) := by
  obtain ⟨text, stream, refs, k, out, h1, h2, h3, hk, hn, hg, hlen, hC, hrch⟩ :=
    roundtrip_core (nd_mk reg) hreg hE.pointers hE.acyclic (fun _ _ _ _ _ _ _ _ _ _ _ _ _ => trivial) hE.complete hE.small
  refine ⟨text, k, out, fun p => (refs.lookup p).getD 0, h1, ?_, by simp only [deserialiseNodeData, h2, decodeND, h3], by simp [hk], ?_, ?_, ?_⟩
  · rintro rfl
    have : Base64.decode [] = .done [] := by decide
    rw [this] at h2
    cases h2
    have hnull : run (decNode reg (ndOps reg) (([] : List UInt8).length + 1)) [] = .null := rfl
    rw [hnull] at h3
    cases h3
  · intro p q hp' hq e
    obtain ⟨kp, h5⟩ := good_reach hg hk p hp'
    obtain ⟨kq, h6⟩ := good_reach hg hk q hq
    simp only [h5, h6, Option.getD_some] at e
    subst e
    exact hn.inj hlen h5 h6
  · intro p n hp' hA
    obtain ⟨kp, h5⟩ := good_reach hg hk p hp'
    obtain ⟨nd, id, m, hw, hch⟩ := hg p kp h5
    have hnd : nd = n := by have := hw.1; rw [hA] at this; exact (Option.some.inj this).symm
    subst hnd
    have hout := hC.node p kp nd h5 hA
    rw [expNode_of hw] at hout
    simp only [hw.2.2.1, Option.map_some, Option.getD_some] at hout
    obtain ⟨g1, g2⟩ := expHyb_value (fun q => refs.lookup q) m.hybrids nd.hybrids hw.2.2.2.2.2.1
    refine ⟨_, by simp only [h5, Option.getD_some]; exact hout, hw.2.1.symm, ?_, ?_, g1, ?_⟩
    · exact expVars_get _ _ _ rfl hw.2.2.2.1 (fun i v d _ h _ => h)
    · apply List.map_congr_left
      intro x hx
      cases x with
      | none => rfl
      | some c =>
        obtain ⟨kc, h7⟩ := hch c (linkND_lookup hA hx)
        simp [h7]
    · intro id' m' i h d e1 e2 e3 e4
      rw [hw.2.1] at e1; cases e1
      rw [hw.2.2.1] at e2; cases e2
      rw [g2 i h d e4 e3]
      obtain ⟨l, v⟩ := h
      cases l with
      | none => rfl
      | some c =>
        obtain ⟨kc, h7⟩ := hch c (linkND_hybrid hA (List.mem_of_getElem? e4))
        simp [h7]
  · intro k' hk'
    rw [hC.len] at hk'
    obtain ⟨p, hp', e⟩ := hn.surj hlen k' hk'
    exact ⟨p, hrch p hp', by simp [e]⟩

theorem iso_of_decoded {reg : Reg} {A B : Arena} {root : Nat} {φ : Nat → Nat} (inj : ∀ p q, Reach A root p → Reach A root q → φ p = φ q → p = q)
    (hc : ∀ p, Reach A root p → Complete reg A p)
    (node : ∀ p n, Reach A root p → A[p]? = some n → ∃ n', B[φ p]? = some n' ∧ SameNode reg φ n n') : Iso reg φ (Reach A root) A B where
  inj := inj
  closed p c hp hl := ReflTransGen.tail hp hl
  node p n hp hA := by
    obtain ⟨n', h1, h2, h3, h4, h5, h6⟩ := node p n hp hA
    refine ⟨n', h1, h2, fun id m hid hm => ⟨h3, h4, h5, fun i h h' e1 e2 => ?_⟩, by rw [h3, h4, h5]; simp⟩
    obtain ⟨nd, id', m', w1, w2, w3, _, _, w6, _⟩ := hc p hp
    rw [hA] at w1; cases w1
    rw [hid] at w2; cases w2
    rw [hm] at w3; cases w3
    have hi : i < m.hybrids.length := by rw [← w6]; exact (List.getElem?_eq_some_iff.mp e1).1
    obtain ⟨g1, g2⟩ := h6 id m i h h' _ hid hm (List.getElem?_eq_getElem hi) e1 e2
    refine ⟨g1, fun hn d hd => ?_⟩
    rw [List.getElem?_eq_getElem hi] at hd; cases hd
    rcases g2 hn with e | e
    · exact Or.inr e
    · exact Or.inl e

theorem Decoded.same {reg : Reg} {φ : Nat → Nat} {n n' : NodeData} (h : Decoded reg φ n n') : SameNode reg φ n n' := by
  refine ⟨h.md, h.vars, h.lookups, h.hlen, fun id m i x x' d e1 e2 e3 e4 e5 => ?_⟩
  have := h.hyb id m i x d e1 e2 e3 e4
  rw [this] at e5; cases e5
  obtain ⟨l, v⟩ := x
  cases l with
  | some c => exact ⟨rfl, fun hn => by cases hn⟩
  | none =>
    refine ⟨rfl, fun _ => ?_⟩
    simp only
    by_cases e : feq v d = true
    · rw [if_pos e]; exact Or.inr ⟨e, feq_self e⟩
    · rw [if_neg e]; exact Or.inl rfl

theorem sameNode_link {reg : Reg} {A B : Arena} {φ : Nat → Nat} {p : Nat} {n n' : NodeData} (hA : A[p]? = some n) (hB : B[φ p]? = some n') (hc : Complete reg A p)
    (h : SameNode reg φ n n') {c' : Nat} : LinkND B (φ p) c' ↔ ∃ c, LinkND A p c ∧ φ c = c' := by
  obtain ⟨nd, id, m, w1, w2, w3, _, _, w6, _⟩ := hc
  rw [hA] at w1; cases w1
  obtain ⟨h1, h2, h3, h4, h5⟩ := h
  have hyb : ∀ (i : Nat) x, n.hybrids[i]? = some x → ∃ x', n'.hybrids[i]? = some x' ∧ x'.1 = x.1.map φ := by
    intro i x hx
    have hi := (List.getElem?_eq_some_iff.mp hx).1
    have hx' := List.getElem?_eq_getElem (l := n'.hybrids) (i := i) (by rw [h4]; exact hi)
    exact ⟨_, hx', (h5 id m i x _ _ w2 w3 (List.getElem?_eq_getElem (by rw [← w6]; exact hi)) hx hx').1⟩
  constructor
  · rintro ⟨nb, hb, hl⟩
    rw [hB] at hb; cases hb
    rcases hl with hl | ⟨v, hl⟩
    · rw [h3] at hl
      obtain ⟨x, hx, e⟩ := List.mem_map.mp hl
      cases x with
      | none => cases e
      | some c => cases e; exact ⟨c, linkND_lookup hA hx, rfl⟩
    · obtain ⟨i, hi⟩ := List.mem_iff_getElem?.mp hl
      have hil := (List.getElem?_eq_some_iff.mp hi).1
      have hx := List.getElem?_eq_getElem (l := n.hybrids) (i := i) (by rw [← h4]; exact hil)
      obtain ⟨x', hx', e⟩ := hyb i _ hx
      rw [hi] at hx'; cases hx'
      cases hl2 : (n.hybrids[i]).1 with
      | none => rw [hl2] at e; cases e
      | some c =>
        rw [hl2] at e; cases e
        exact ⟨c, linkND_hybrid (v := (n.hybrids[i]).2) hA (by rw [← hl2]; exact List.getElem_mem _), rfl⟩
  · rintro ⟨c, ⟨na, ha, hl⟩, rfl⟩
    rw [hA] at ha; cases ha
    rcases hl with hl | ⟨v, hl⟩
    · exact linkND_lookup hB (by rw [h3]; exact List.mem_map.mpr ⟨_, hl, rfl⟩)
    · obtain ⟨i, hi⟩ := List.mem_iff_getElem?.mp hl
      obtain ⟨⟨l', v'⟩, hx', e⟩ := hyb i _ hi
      simp only [Option.map_some] at e
      subst e
      exact linkND_hybrid hB (List.mem_of_getElem? hx')

/-- The nodes reached in the copy are the images of the nodes reached. -/
theorem reach_image {reg : Reg} {A B : Arena} {root : Nat} {φ : Nat → Nat} (hc : ∀ p, Reach A root p → Complete reg A p)
    (node : ∀ p n, Reach A root p → A[p]? = some n → ∃ n', B[φ p]? = some n' ∧ SameNode reg φ n n') {k : Nat} :
    Reach B (φ root) k ↔ ∃ p, Reach A root p ∧ φ p = k := by
  constructor
  · intro h
    induction h with
    | refl => exact ⟨root, .refl, rfl⟩
    | tail _ hl ih =>
      obtain ⟨p, hp, rfl⟩ := ih
      obtain ⟨nd, _, _, w1, _⟩ := hc p hp
      obtain ⟨n', b1, b2⟩ := node p nd hp w1
      obtain ⟨c, hlc, rfl⟩ := (sameNode_link w1 b1 (hc p hp) b2).mp hl
      exact ⟨c, hp.tail hlc, rfl⟩
  · rintro ⟨p, hp, rfl⟩
    induction hp with
    | refl => exact .refl
    | tail hp hl ih =>
      rename_i q c
      obtain ⟨nd, _, _, w1, _⟩ := hc q hp
      obtain ⟨n', b1, b2⟩ := node q nd hp w1
      exact ih.tail ((sameNode_link w1 b1 (hc q hp) b2).mpr ⟨c, hl, rfl⟩)

/-- A copy of an encodable tree is encodable. -/
theorem encodable_copy {reg : Reg} {A B : Arena} {root : Nat} {φ : Nat → Nat} (hE : Encodable reg A root)
    (inj : ∀ p q, Reach A root p → Reach A root q → φ p = φ q → p = q)
    (node : ∀ p n, Reach A root p → A[p]? = some n → ∃ n', B[φ p]? = some n' ∧ SameNode reg φ n n') : Encodable reg B (φ root) := by
  have img := fun k => reach_image (k := k) hE.complete node
  have back : ∀ p k, Reach A root p → TransGen (LinkND B) (φ p) k → ∃ q, TransGen (LinkND A) p q ∧ φ q = k := by
    intro p k hp h
    induction h with
    | single hl =>
      obtain ⟨nd, _, _, w1, _⟩ := hE.complete p hp
      obtain ⟨n', b1, b2⟩ := node p nd hp w1
      obtain ⟨c, hlc, rfl⟩ := (sameNode_link w1 b1 (hE.complete p hp) b2).mp hl
      exact ⟨c, .single hlc, rfl⟩
    | tail _ hl ih =>
      obtain ⟨q, hq, rfl⟩ := ih
      have hq' : Reach A root q := ReflTransGen.trans hp hq.to_reflTransGen
      obtain ⟨nd, _, _, w1, _⟩ := hE.complete q hq'
      obtain ⟨n', b1, b2⟩ := node q nd hq' w1
      obtain ⟨c, hlc, rfl⟩ := (sameNode_link w1 b1 (hE.complete q hq') b2).mp hl
      exact ⟨c, hq.tail hlc, rfl⟩
  refine ⟨?_, ?_, ?_, ?_⟩
  · intro k hk
    obtain ⟨p, hp, rfl⟩ := (img k).mp hk
    obtain ⟨nd, id, m, w1, w2, w3, _⟩ := hE.complete p hp
    obtain ⟨n', b1, b2⟩ := node p nd hp w1
    exact ⟨n', b1, fun id' hid' => by rw [b2.1, w2] at hid'; cases hid'; exact ⟨m, w3⟩⟩
  · intro k hk h
    obtain ⟨p, hp, rfl⟩ := (img k).mp hk
    obtain ⟨q, hq, e⟩ := back p _ hp h
    have := inj q p (ReflTransGen.trans hp hq.to_reflTransGen) hp e
    subst this
    exact hE.acyclic q hp hq
  · intro k hk
    obtain ⟨p, hp, rfl⟩ := (img k).mp hk
    obtain ⟨nd, id, m, w1, w2, w3, w4, w5, w6, w7⟩ := hE.complete p hp
    obtain ⟨n', b1, b2, b3, b4, b5, _⟩ := node p nd hp w1
    refine ⟨n', id, m, b1, by rw [b2]; exact w2, w3, by rw [b3]; exact w4, by rw [b4]; simpa using w5, by rw [b5]; exact w6, ?_⟩
    rw [b4]
    intro h
    obtain ⟨x, hx, e⟩ := List.mem_map.mp h
    cases x with
    | none => exact w7 hx
    | some c => cases e
  · obtain ⟨l, h1, h2⟩ := hE.small
    exact ⟨l.map φ, by simpa using h1, fun k hk => by
      obtain ⟨p, hp, rfl⟩ := (img k).mp hk
      exact List.mem_map.mpr ⟨p, h2 p hp, rfl⟩⟩

end FastNoise.RT
