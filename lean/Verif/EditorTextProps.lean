import Verif.CanonProps
import Verif.EditorFileProps
/-! # C50: every node has the same encoded text after a restart -/
namespace FastNoise.Editor
open FastNoise.Ser FastNoise.Stream FastNoise.Deser FastNoise.Spec FastNoise.RT
open Relation

theorem sound_reach {reg : Reg} {st : Ed} (h : Sound reg st) {p q : Nat} (hp : Shown st p) (hr : Reach st.arena p q) : Shown st q := by
  induction hr with
  | refl => exact hp
  | tail _ hl ih => exact h.linked _ _ ih hl

theorem sound_meta {reg : Reg} {st : Ed} (h : Sound reg st) {p : Nat} (hp : Shown st p) : HasMetadata reg st.arena p := by
  intro q hq
  obtain ⟨nd, id, m, a1, a2, a3, _⟩ := h.alive q (sound_reach h hp hq)
  exact ⟨nd, id, m, a1, a2, a3⟩

theorem sound_acyclic {reg : Reg} {st : Ed} (h : Sound reg st) {p : Nat} (hp : Shown st p) : AcyclicFrom st.arena p :=
  fun q hq => h.acyclic q (sound_reach h hp hq)

theorem forall₂_map {α β : Type} {R : α → β → Prop} {f : α → β} : ∀ {l : List α} {l' : List β}, List.Forall₂ R l l' → (∀ a ∈ l, ∀ b ∈ l', R a b → b = f a) → l' = l.map f := by
  intro l l' h
  induction h with
  | nil => intro _; rfl
  | cons h _ ih =>
    intro hf
    rw [List.map_cons, hf _ (by simp) _ (by simp) h, ih fun a ha b hb => hf a (by simp [ha]) b (by simp [hb])]

theorem iso_of_same {reg : Reg} {st st' : Ed} (h : Sound reg st) (h' : Sound reg st') (hs : SameGraph Eq st st') :
    ∃ φ : Nat → Nat, (∀ p p' id, (p, id) ∈ st.nodes → (p', id) ∈ st'.nodes → φ p = p') ∧ Iso reg φ (Shown st) st.arena st'.arena := by
  classical
  have ex : ∀ p, Shown st p → ∃ p', ∃ id, (p, id) ∈ st.nodes ∧ (p', id) ∈ st'.nodes := fun p ⟨id, hid⟩ => by
    obtain ⟨p', hp'⟩ := (hs.ids id).mp ⟨p, hid⟩
    exact ⟨p', id, hid, hp'⟩
  let φ : Nat → Nat := fun p => if hp : Shown st p then Classical.choose (ex p hp) else 0
  have φs : ∀ p p' id, (p, id) ∈ st.nodes → (p', id) ∈ st'.nodes → φ p = p' := by
    intro p p' id hp hp'
    have e : φ p = Classical.choose (ex p ⟨id, hp⟩) := dif_pos (⟨id, hp⟩ : Shown st p)
    obtain ⟨j, b1, b2⟩ := Classical.choose_spec (ex p ⟨id, hp⟩)
    rw [← e] at b2
    have := (h.unique p p id j hp b1).mp rfl
    exact (h'.unique _ _ j id b2 hp').mpr this.symm
  refine ⟨φ, φs, ?_, fun p c hp hl => h.linked p c hp hl, ?_⟩
  · intro p q ⟨i, hi⟩ ⟨j, hj⟩ e
    obtain ⟨p', hp'⟩ := (hs.ids i).mp ⟨p, hi⟩
    obtain ⟨q', hq'⟩ := (hs.ids j).mp ⟨q, hj⟩
    rw [φs p p' i hi hp', φs q q' j hj hq'] at e
    exact (h.unique p q i j hi hj).mpr ((h'.unique p' q' i j hp' hq').mp e)
  · intro p n ⟨i, hi⟩ hn
    obtain ⟨p', hp'⟩ := (hs.ids i).mp ⟨p, hi⟩
    obtain ⟨nd, nd', e1, e2, e3⟩ := hs.nodes i p p' hi hp'
    rw [hn] at e1; cases e1
    have link : ∀ a b, SameLink st.nodes st'.nodes a b → b = a.map φ := by
      intro a b hab
      match a, b, hab with
      | none, none, _ => rfl
      | some c, some c', ⟨id, k1, k2⟩ => rw [Option.map_some, φs c c' id k1 k2]
    have lk : nd'.lookups = n.lookups.map (Option.map φ) := forall₂_map e3.lookups fun a _ b _ hab => link a b hab
    have hy : nd'.hybrids = n.hybrids.map fun x => (x.1.map φ, x.2) := forall₂_map e3.hybrids fun a _ b _ hab => Prod.ext (link _ _ hab.1) hab.2.symm
    refine ⟨nd', by rw [φs p p' i hi hp']; exact e2, e3.type, fun id m _ _ => ⟨e3.vars, lk, by rw [hy, List.length_map], ?_⟩, by rw [e3.vars, lk, hy]; simp⟩
    intro k x x' g1 g2
    rw [hy, List.getElem?_map, g1] at g2
    cases g2
    exact ⟨rfl, fun _ _ _ => Or.inr rfl⟩

/-- **C50** If every number was typed in with at most six decimals, or is 16 or larger, every node of the graph has the same encoded text after the restart as before, and it is
the text the editor shows without changing the graph.  (Memory: fewer than 2^54 nodes.) -/
theorem C50_same_text (st : Ed) (h : Session Registry.reg st) (grid : Grid) (pr pr0 : Prefs) (detached : Bool) (hk : AllValues Kept st grid pr) (ρ ρ' : List (Nat × Nat) → List (Nat × Nat))
    (hρ : SomeOrder ρ) (hρ' : SomeOrder ρ') (fuel : Nat) (hf : st.nodes.length < fuel) (hm : st.arena.length < 2 ^ 54) :
    ∃ file ld, save ρ fuel st grid pr = .ok file ∧ load Registry.reg ρ' fuel detached pr0 file = .ok ld ∧
      ∀ p p' id, (p, id) ∈ st.nodes → (p', id) ∈ ld.ed.nodes → ∃ text, serialise Registry.reg true st.arena p = .text text st.arena ∧ serialise Registry.reg true ld.ed.arena p' = .text text ld.ed.arena := by
  obtain ⟨file, ld, s1, s2, s3⟩ := C50_exact st h grid pr pr0 detached hk ρ ρ' hρ hρ' fuel hf
  obtain ⟨file', ld', t1, t2, _, t3, t4⟩ := C50_restores st h grid pr pr0 detached ρ ρ' hρ hρ' fuel hf
  rw [s1] at t1; cases t1
  rw [s2] at t2; cases t2
  have hi := inv_of_session few_reg warpFirst_reg h
  have hi' := inv_of_session few_reg warpFirst_reg t4
  have hfit := fit_of_session few_reg warpFirst_reg h
  have hfit' := fit_of_session few_reg warpFirst_reg t4
  have hso := sound_of_inv hi
  have hso' := sound_of_inv hi'
  have hm' : ld.ed.arena.length < 2 ^ 54 := by
    obtain ⟨qs, q1, q2, q3, q4⟩ := save_load Registry.reg_ok hi hfit grid pr pr0 detached hρ hρ' hf
    rw [s1] at q3; cases q3
    rw [s2] at q4; cases q4
    have hle : qs.length ≤ st.nodes.length := (List.subperm_of_subset q1.nodup (fun n hn => (q2 n).mp hn)).length_le
    have hp : st.nodes.length ≤ st.arena.length := by
      have hn : (st.nodes.map (·.1)).Nodup := hi.pnd
      have := nodup_length_le hn fun x hx => hi.good.lt hx
      simpa using this
    have := back_length st qs
    simp only at this ⊢
    omega
  refine ⟨file, ld, s1, s2, fun p p' id hp hp' => ?_⟩
  obtain ⟨t, u1, u2⟩ := C10_fixup_harmless Registry.reg Registry.reg_ok st.arena p (sound_meta hso ⟨id, hp⟩) hm (sound_acyclic hso ⟨id, hp⟩)
    (sourcesFit_of hi.good hfit (List.mem_map.mpr ⟨_, hp, rfl⟩))
  obtain ⟨t', v1, v2⟩ := C10_fixup_harmless Registry.reg Registry.reg_ok ld.ed.arena p' (sound_meta hso' ⟨id, hp'⟩) hm' (sound_acyclic hso' ⟨id, hp'⟩)
    (sourcesFit_of hi'.good hfit' (List.mem_map.mpr ⟨_, hp', rfl⟩))
  obtain ⟨φ, φs, hI⟩ := iso_of_same hso hso' s3.graph
  have e := φs p p' id hp hp'
  have w := serialise_iso hI (p := p) ⟨id, hp⟩ u2 (by rw [e]; exact v2)
  rw [e, v2] at w
  have := (SerOut.text.inj w).1
  exact ⟨t, u1, this ▸ v1⟩

/-- Hypotheses met by the session of four nodes: its text before and after. -/
example : ∃ file ld, save id 20 exSt exGrid exPrefs = .ok file ∧ load Registry.reg id 20 true exPrefs0 file = .ok ld ∧
    ∀ p p' id, (p, id) ∈ exSt.nodes → (p', id) ∈ ld.ed.nodes → ∃ text, serialise Registry.reg true exSt.arena p = .text text exSt.arena ∧ serialise Registry.reg true ld.ed.arena p' = .text text ld.ed.arena := by
  have zero : Kept 0 := Or.inl ⟨"0.000000".toList, ⟨[], 0, 0, Or.inl rfl, by norm_num, by decide +kernel⟩, by decide +kernel⟩
  have half : Kept 0x3f000000 := Or.inl ⟨"0.500000".toList, ⟨[], 0, 500000, Or.inl rfl, by norm_num, by decide +kernel⟩, by decide +kernel⟩
  refine C50_same_text exSt ex_session exGrid exPrefs exPrefs0 true ⟨?_, ?_, ?_, ?_⟩ id id (fun _ => List.Perm.refl _) (fun _ => List.Perm.refl _) 20 (by decide) (by decide)
  · intro p nd x ⟨i, hi⟩ hnd hx
    have key : ∀ n ∈ exSt.nodes, ∀ y ∈ (exSt.arena[n.1]?).toList.flatMap (·.hybrids), y.2 = 0 := by decide
    rw [key (p, i) hi x (by simp only [hnd, Option.toList_some, List.flatMap_cons, List.flatMap_nil, List.append_nil]; exact hx)]
    exact zero
  · intro p i hi
    have key : ∀ n ∈ exSt.nodes, n.2 = 2 ∨ n.2 = 3 ∨ n.2 = 4 ∨ n.2 = 5 := by decide
    refine ⟨?_, half⟩
    have large : ∀ v : UInt32, expField v ≠ 255 → 16 ≤ absVal v → Kept v := fun v a b => Or.inr (Or.inl ⟨a, b⟩)
    rcases key _ hi with e | e | e | e <;> simp only at e <;> subst e <;> refine large _ (by decide) ?_ <;>
      · unfold absVal expField fracField exGrid; norm_num
  · exact ⟨Or.inl ⟨"-10.000000".toList, ⟨['-'], 10, 0, Or.inr rfl, by norm_num, by decide +kernel⟩, by decide +kernel⟩,
      Or.inl ⟨"0.100000".toList, ⟨[], 0, 100000, Or.inl rfl, by norm_num, by decide +kernel⟩, by decide +kernel⟩⟩
  · exact Or.inl ⟨"0.020000".toList, ⟨[], 0, 20000, Or.inl rfl, by norm_num, by decide +kernel⟩, by decide +kernel⟩

end FastNoise.Editor
