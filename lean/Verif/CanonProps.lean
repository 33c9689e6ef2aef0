import Verif.CanonLemmas
import Mathlib.Tactic.IntervalCases
/-! # C54: the text is a canonical name of the design -/
namespace FastNoise.RT
open FastNoise.Ser FastNoise.Stream FastNoise.Deser FastNoise.Spec FastNoise.Registry
open Relation

/-- **C54** Two trees have the same text exactly if they are the same design: same types, settings, links and sharing.  Where the nodes live, the order in which they were created
and what else is in the graph do not matter; nothing in the design is lost or confused. -/
theorem C54_text_iff (reg : Reg) (hreg : RegOK reg) (A B : Arena) (root root' : Nat) (hA : Encodable reg A root) (hB : Encodable reg B root') :
    ∃ s t, serialise reg false A root = .text s A ∧ serialise reg false B root' = .text t B ∧ s ≠ [] ∧ t ≠ [] ∧ (s = t ↔ SameDesign reg A root B root') := by
  obtain ⟨s, r, C, φ, a1, a2, a3, a4, a5, a6, a7⟩ := decode_exact hreg hA
  obtain ⟨t, r', C', ψ, b1, b2, b3, b4, b5, b6, b7⟩ := decode_exact hreg hB
  refine ⟨s, t, a1, b1, a2, b2, fun e => ?_, fun ⟨χ, e1, e2, e3, e4⟩ => ?_⟩
  · subst e
    rw [a3] at b3
    injection b3 with hr hC
    subst hr hC
    -- the node of `B` decoded to the same place
    have inv : ∀ p, Reach A root p → ∃ q, Reach B root' q ∧ ψ q = φ p := by
      intro p hp
      obtain ⟨nd, _, _, w1, _⟩ := hA.complete p hp
      obtain ⟨n', c1, _⟩ := a6 p nd hp w1
      exact b7 _ (List.getElem?_eq_some_iff.mp c1).1
    classical
    let χ : Nat → Nat := fun p => if h : Reach A root p then Classical.choose (inv p h) else 0
    have χs : ∀ p, Reach A root p → Reach B root' (χ p) ∧ ψ (χ p) = φ p := by
      intro p hp
      have : χ p = Classical.choose (inv p hp) := by simp only [χ, dif_pos hp]
      rw [this]; exact Classical.choose_spec (inv p hp)
    have χroot : χ root = root' := b5 _ _ (χs root .refl).1 .refl (by rw [(χs root .refl).2, a4, b4])
    refine ⟨χ, χroot, ?_, ?_, ?_⟩
    · intro p q hp hq e
      exact a5 p q hp hq (by rw [← (χs p hp).2, ← (χs q hq).2, e])
    · intro p n hp hn
      obtain ⟨c, c1, c2⟩ := a6 p n hp hn
      obtain ⟨n', id', m', v1, v2, v3, _, v5, v6, _⟩ := hB.complete _ (χs p hp).1
      obtain ⟨c', d1, d2⟩ := b6 _ n' (χs p hp).1 v1
      rw [(χs p hp).2, c1] at d1
      injection d1 with d1
      subst d1
      obtain ⟨_, id, m, w1, w2, w3, _, w5, w6, _⟩ := hA.complete p hp
      rw [hn] at w1; cases w1
      have hlk : ∀ (x y : Option Nat), (∀ a, x = some a → LinkND A p a) → (∀ b, y = some b → LinkND B (χ p) b) → x.map φ = y.map ψ → y = x.map χ := by
        intro x y hx hy e
        cases x with
        | none => cases y with
          | none => rfl
          | some b => cases e
        | some a => cases y with
          | none => cases e
          | some b =>
            simp only [Option.map_some, Option.some.injEq] at e ⊢
            have ha : Reach A root a := hp.tail (hx a rfl)
            have hb : Reach B root' b := (χs p hp).1.tail (hy b rfl)
            exact b5 b (χ a) hb (χs a ha).1 (by rw [(χs a ha).2, e])
      have hmd : n'.md = n.md := by rw [← d2.md, c2.md]
      have hid : id' = id := by rw [v2, w2] at hmd; cases hmd; rfl
      subst hid
      have hmm : m' = m := by rw [v3] at w3; cases w3; rfl
      subst hmm
      refine ⟨n', v1, hmd, by rw [← d2.vars, c2.vars], ?_, ?_, ?_⟩
      · apply List.ext_getElem?
        intro i
        have e : (n.lookups.map (Option.map φ))[i]? = (n'.lookups.map (Option.map ψ))[i]? := by rw [← c2.lookups, d2.lookups]
        simp only [List.getElem?_map] at e ⊢
        cases hx : n.lookups[i]? with
        | none =>
          rw [hx] at e
          cases hy : n'.lookups[i]? with
          | none => rfl
          | some y => rw [hy] at e; cases e
        | some x =>
          rw [hx] at e
          cases hy : n'.lookups[i]? with
          | none => rw [hy] at e; cases e
          | some y =>
            rw [hy] at e
            simp only [Option.map_some, Option.some.injEq] at e ⊢
            exact hlk x y (fun a ha => linkND_lookup hn (ha ▸ List.mem_of_getElem? hx)) (fun b hb => linkND_lookup v1 (hb ▸ List.mem_of_getElem? hy)) e
      · rw [← d2.hlen, c2.hlen]
      · intro id2 m2 i h h' d g1 g2 g3 g4 g5
        rw [w2] at g1; cases g1
        rw [v3] at g2; cases g2
        have k1 := c2.hyb _ _ i h d w2 v3 g3 g4
        have k2 := d2.hyb _ _ i h' d v2 v3 g3 g5
        rw [k1] at k2
        obtain ⟨l, v⟩ := h
        obtain ⟨l', v'⟩ := h'
        have hlink : l' = l.map χ := by
          refine hlk l l' (fun a ha => linkND_hybrid hn (ha ▸ List.mem_of_getElem? g4)) (fun b hb => linkND_hybrid v1 (hb ▸ List.mem_of_getElem? g5)) ?_
          cases l <;> cases l' <;> simp at k2 ⊢
          exact k2
        refine ⟨hlink, fun hnone => ?_⟩
        simp only at hnone
        subst hnone
        simp only [Option.map_none] at hlink
        subst hlink
        simp only [Option.some.injEq, Prod.mk.injEq, true_and] at k2
        simp only
        by_cases f1 : feq v d = true
        · rw [if_pos f1] at k2
          by_cases f2 : feq v' d = true
          · exact Or.inr ⟨f1, f2⟩
          · rw [if_neg f2] at k2
            rw [← k2] at f2
            exact absurd (feq_self f1) f2
        · rw [if_neg f1] at k2
          by_cases f2 : feq v' d = true
          · rw [if_pos f2] at k2
            rw [k2] at f1
            exact absurd (feq_self f2) f1
          · rw [if_neg f2] at k2; exact Or.inl k2
    · intro k hk
      obtain ⟨nd, _, _, w1, _⟩ := hB.complete k hk
      obtain ⟨n', c1, _⟩ := b6 k nd hk w1
      obtain ⟨p, hp, e⟩ := a7 _ (List.getElem?_eq_some_iff.mp c1).1
      exact ⟨p, hp, b5 _ _ (χs p hp).1 hk (by rw [(χs p hp).2, e])⟩
  · have := serialise_iso (iso_of_decoded e2 hA.complete e3) (p := root) .refl a1 (by rw [e1]; exact b1)
    rw [e1, b1] at this
    exact ((SerOut.text.inj this).1).symm

/-- **C54** Re-encoding what a text decodes to gives the same text. -/
theorem C54_reencode (reg : Reg) (hreg : RegOK reg) (A : Arena) (root : Nat) (hA : Encodable reg A root) :
    ∃ text root' B, serialise reg false A root = .text text A ∧ deserialiseNodeData reg text = .tree root' B ∧ serialise reg false B root' = .text text B := by
  obtain ⟨s, r, C, φ, a1, a2, a3, a4, a5, a6, a7⟩ := decode_exact hreg hA
  have node : ∀ p n, Reach A root p → A[p]? = some n → ∃ n', C[φ p]? = some n' ∧ SameNode reg φ n n' := fun p n hp hn => by
    obtain ⟨n', h1, h2⟩ := a6 p n hp hn
    exact ⟨n', h1, h2.same⟩
  have hC := encodable_copy hA a5 node
  obtain ⟨t, _, _, _, b1, _⟩ := decode_exact hreg hC
  refine ⟨s, r, C, a1, a3, ?_⟩
  rw [← a4]
  exact serialise_iso (iso_of_decoded a5 hA.complete node) .refl a1 b1

/-- Hypotheses met by the shared graph of `C04_roundtrip`, and by the same design with its nodes in another order and something else in the graph. -/
theorem exGood_encodable : Encodable Registry.reg exGood 2 := ⟨exGood_ptr, acyclicFrom_of_dec exGood_dec _, exGood_complete, [0, 1, 2], by decide, fun p hp => by
    have := reach_lt exGood_dec (by decide) p hp
    have : p = 0 ∨ p = 1 ∨ p = 2 := by omega
    simpa using this⟩

def exMoved : Arena :=
  [⟨some 21, [], [some 3], [(some 2, f2)]⟩, ⟨some 0, [f1], [], []⟩, ⟨some 6, [f100, 7, fm1, f1], [], []⟩, ⟨some 13, [5, f2], [some 2], [(none, f05), (none, 0x80000000)]⟩]

example : ∃ text, serialise Registry.reg false exGood 2 = .text text exGood ∧ serialise Registry.reg false exMoved 0 = .text text exMoved ∧ text ≠ [] := by
  have hE := exGood_encodable
  have node : ∀ p n, Reach exGood 2 p → exGood[p]? = some n → ∃ n', exMoved[[2, 3, 0].getD p 0]? = some n' ∧ SameNode Registry.reg (fun p => [2, 3, 0].getD p 0) n n' := by
    intro p n hp hn
    have h13 : Registry.reg[13]? = some ⟨[3, f2], [.any], [f05, f0], false⟩ := by decide +kernel
    match p, reach_lt exGood_dec (by decide) p hp, hn with
    | 0, _, hn => simp only [exGood, List.getElem?_cons_zero, Option.some.injEq] at hn; subst hn; exact ⟨_, rfl, rfl, rfl, rfl, rfl, by simp⟩
    | 1, _, hn =>
      simp only [exGood, List.getElem?_cons_succ, List.getElem?_cons_zero, Option.some.injEq] at hn
      subst hn
      refine ⟨_, rfl, rfl, rfl, rfl, rfl, ?_⟩
      intro id m i h h' d e1 e2 e3 e4 e5
      cases e1
      rw [h13] at e2; cases e2
      match i, e3, e4, e5 with
      | 0, e3, e4, e5 => simp at e3 e4 e5; subst e4; subst e5; exact ⟨rfl, fun _ => Or.inl rfl⟩
      | 1, e3, e4, e5 => simp at e3 e4 e5; subst e3; subst e4; subst e5; exact ⟨rfl, fun _ => Or.inr (by decide)⟩
      | i + 2, e3, e4, e5 => simp at e3
    | 2, _, hn =>
      simp only [exGood, List.getElem?_cons_succ, List.getElem?_cons_zero, Option.some.injEq] at hn
      subst hn
      refine ⟨_, rfl, rfl, rfl, rfl, rfl, ?_⟩
      intro id m i h h' d e1 e2 e3 e4 e5
      match i, e4, e5 with
      | 0, e4, e5 => simp at e4 e5; subst e4; subst e5; exact ⟨rfl, by simp⟩
      | i + 1, e4, e5 => simp at e4
  have inj : ∀ p q, Reach exGood 2 p → Reach exGood 2 q → [2, 3, 0].getD p 0 = [2, 3, 0].getD q 0 → p = q := by
    intro p q hp hq e
    have h1 := reach_lt exGood_dec (by decide) p hp
    have h2 := reach_lt exGood_dec (by decide) q hq
    interval_cases p <;> interval_cases q <;> simp at e ⊢
  obtain ⟨s, t, a, b, c, _, d⟩ := C54_text_iff Registry.reg reg_ok exGood exMoved 2 0 hE (encodable_copy (φ := fun p => [2, 3, 0].getD p 0) hE inj node)
  have e := d.mpr ⟨_, rfl, inj, node, fun k hk => (reach_image hE.complete node).mp hk⟩
  exact ⟨s, a, by rw [e]; exact b, c⟩

/-- A different design has a different text: one constant changed. -/
example : ∃ s t, serialise Registry.reg false exGood 2 = .text s exGood ∧ serialise Registry.reg false (exGood.set 1 ⟨some 13, [5, f2], [some 0], [(none, f1), (none, f0)]⟩) 2 = .text t (exGood.set 1 ⟨some 13, [5, f2], [some 0], [(none, f1), (none, f0)]⟩) ∧
    s ≠ t := ⟨_, _, rfl, rfl, by decide +kernel⟩

end FastNoise.RT
