import Verif.DeserLemmas
import Verif.DeserSpec

/-! Helper lemmas: the invariants of the two concrete decoders. -/
namespace FastNoise.Deser
open FastNoise.Stream FastNoise.Ser FastNoise.Spec FastNoise.Registry

/-- Invariant of a `NodeData` under construction. -/
def KND (reg : Reg) (id : Nat) (out : List NodeData) (n : NodeData) (_ : Nat) : Prop :=
  ∃ m, reg[id]? = some m ∧ n.md = some id ∧ n.vars.length = m.vars.length ∧
    n.lookups.length = m.lookups.length ∧ n.hybrids.length = m.hybrids.length ∧
    (∀ c, some c ∈ n.lookups → c < out.length) ∧ (∀ c v, (some c, v) ∈ n.hybrids → c < out.length)

theorem nd_inv (reg : Reg) : OpsInv reg (ndOps reg) (KND reg) where
  create := by
    intro id m out n hm hn
    simp only [ndOps, newNodeData, hm, Option.map_some, Option.some.injEq] at hn
    subst hn
    refine ⟨m, hm, rfl, rfl, by simp, by simp, ?_, ?_⟩
    · intro c hc; simp at hc
    · intro c v hc; simp at hc
  mono := by
    rintro id out ext n j ⟨m, h1, h2, h3, h4, h5, h6, h7⟩
    refine ⟨m, h1, h2, h3, h4, h5, ?_, ?_⟩
    · intro c hc; have := h6 c hc; simp; omega
    · intro c v hc; have := h7 c v hc; simp; omega
  setVar := by
    rintro id m out n i v j hm ⟨m', h1, h2, h3, h4, h5, h6, h7⟩ hi
    rw [hm] at h1; cases h1
    have : i < n.vars.length := by omega
    refine ⟨{ n with vars := n.vars.set i v }, by simp [ndOps, setAt, this], m, hm, h2, by simpa using h3, h4, h5, h6, h7⟩
  setLookup := by
    rintro id m out n i c hm ⟨m', h1, h2, h3, h4, h5, h6, h7⟩ hi hc
    rw [hm] at h1; cases h1
    have hi' : i < n.lookups.length := by omega
    refine Or.inr ⟨{ n with lookups := n.lookups.set i c }, by simp [ndOps, setAt, hi'], m, hm, h2, h3, by simpa using h4, h5, ?_, h7⟩
    intro k hk
    rcases List.mem_or_eq_of_mem_set hk with h | h
    · exact h6 k h
    · obtain ⟨nk, _, _, _, _, e, _⟩ := hc k h.symm
      exact (List.getElem?_eq_some_iff.mp e).1
  fill := by
    rintro id m out n i hm h hi
    refine Or.inr ⟨n, rfl, ?_⟩
    exact h
  setHybNode := by
    rintro id m out n i c j hm ⟨m', h1, h2, h3, h4, h5, h6, h7⟩ hi hc
    rw [hm] at h1; cases h1
    have hi' : i < n.hybrids.length := by omega
    refine Or.inr ⟨{ n with hybrids := n.hybrids.set i (c, n.hybrids[i].2) }, by simp [ndOps, List.getElem?_eq_getElem hi'], m, hm, h2, h3, h4,
      by simpa using h5, h6, ?_⟩
    intro k v hk
    rcases List.mem_or_eq_of_mem_set hk with h | h
    · exact h7 k v h
    · exact hc k (by simp at h; exact h.1.symm)
  setHybVal := by
    rintro id m out n i v j hm ⟨m', h1, h2, h3, h4, h5, h6, h7⟩ hi
    rw [hm] at h1; cases h1
    have hi' : i < n.hybrids.length := by omega
    refine ⟨{ n with hybrids := n.hybrids.set i (n.hybrids[i].1, v) }, by simp [ndOps, List.getElem?_eq_getElem hi'], m, hm, h2, h3, h4,
      by simpa using h5, h6, ?_⟩
    intro k v' hk
    rcases List.mem_or_eq_of_mem_set hk with h | h
    · exact h7 k v' h
    · simp at h
      refine h7 k n.hybrids[i].2 ?_
      rw [h.1]
      exact List.getElem_mem hi'

/-- Invariant of a generator under construction whose first `j` source slots were processed. -/
def KSN (reg : Reg) (id : Nat) (out : List Gen) (n : Gen) (j : Nat) : Prop :=
  ∃ m, reg[id]? = some m ∧ n.id = id ∧ n.vars.length = m.vars.length ∧
    n.lookups.length = m.lookups.length ∧ n.hybrids.length = m.hybrids.length ∧
    (∀ s v, (some s, v) ∈ n.hybrids → ∃ c, s = .node c ∧ c < out.length) ∧
    (∀ (i : Nat) s, n.lookups[i]? = some (some s) → ∃ k, m.lookups[i]? = some k ∧ Fits reg out k s) ∧
    (∀ i : Nat, i < j → ∃ s, n.lookups[i]? = some (some s)) ∧
    (∀ i : Nat, j ≤ i → i < n.lookups.length → n.lookups[i]? = some none)

theorem Fits.mono {reg : Reg} {out ext : List Gen} {k : Kind} {s : Src} (h : Fits reg out k s) :
    Fits reg (out ++ ext) k s := by
  cases s with
  | dummy => exact h
  | node c =>
    obtain ⟨g, m, h1, h2, h3⟩ := h
    exact ⟨g, m, by rw [List.getElem?_append_left (List.getElem?_eq_some_iff.mp h1).1]; exact h1, h2, h3⟩

theorem sn_inv (reg : Reg) (cd : List ClassDefaults) (lvl : Bool) (hcd : CdOK reg cd) :
    OpsInv reg (snOps reg cd lvl) (KSN reg) where
  create := by
    intro id m out n hm hn
    simp only [snOps] at hn
    split at hn
    · have hlt : id < cd.length := by
        rw [hcd.1]; exact (List.getElem?_eq_some_iff.mp hm).1
      have hc := List.getElem?_eq_getElem hlt
      rw [hm, hc] at hn
      simp only [Option.some.injEq] at hn
      obtain ⟨l1, l2⟩ := hcd.2 id m _ hm hc
      subst hn
      refine ⟨m, hm, rfl, l1, by simp, by simpa using l2, ?_, ?_, ?_, ?_⟩
      · intro s v h; simp at h
      · intro i s h; simp at h
      · intro i h; omega
      · intro i _ h; simp at h; simp [h]
    · simp at hn
  mono := by
    rintro id out ext n j ⟨m, h1, h2, h3, h4, h5, h6, h7, h8, h9⟩
    refine ⟨m, h1, h2, h3, h4, h5, ?_, ?_, h8, h9⟩
    · intro s v h
      obtain ⟨c, e, hc⟩ := h6 s v h
      exact ⟨c, e, by simp; omega⟩
    · intro i s h
      obtain ⟨k, e, hk⟩ := h7 i s h
      exact ⟨k, e, Fits.mono hk⟩
  setVar := by
    rintro id m out n i v j hm ⟨m', h1, h2, h3, h4, h5, h6, h7, h8, h9⟩ hi
    rw [hm] at h1; cases h1
    have : i < n.vars.length := by omega
    exact ⟨{ n with vars := n.vars.set i v }, by simp [snOps, setAt, this], m, hm, h2, by simpa using h3, h4, h5, h6, h7, h8, h9⟩
  setLookup := by
    rintro id m out n i c hm ⟨m', h1, h2, h3, h4, h5, h6, h7, h8, h9⟩ hi hc
    rw [hm] at h1; cases h1
    cases c with
    | none => left; rfl
    | some c =>
      obtain ⟨nk, idk, jk, mk, outk, e1, e2, e3⟩ := hc c rfl
      obtain ⟨mk', g1, g2, _⟩ := e3
      rw [e2] at g1; cases g1
      have hk := List.getElem?_eq_getElem hi
      simp only [snOps, h2, hm, e1, Option.bind_some, hk, g2, e2]
      by_cases ha : accepts m.lookups[i] mk = true
      · right
        have hi' : i < n.lookups.length := by omega
        refine ⟨{ n with lookups := n.lookups.set i (some (.node c)) }, by simp [ha, setAt, hi', h2], m, hm, h2, h3, by simpa using h4, h5, h6, ?_, ?_, ?_⟩
        · intro i' s hs
          by_cases hii : i = i'
          · subst hii
            simp [hi'] at hs
            subst hs
            refine ⟨_, hk, nk, mk, e1, by rw [g2]; exact e2, ?_⟩
            intro hw; rw [hw] at ha; exact ha
          · simp only [List.getElem?_set_ne hii] at hs
            exact h7 i' s hs
        · intro i' hlt
          by_cases hii : i = i'
          · subst hii; simp [hi']
          · simp only [List.getElem?_set_ne hii]
            exact h8 i' (by omega)
        · intro i' hle hlt
          have hii : i ≠ i' := by omega
          simp only [List.getElem?_set_ne hii]
          simp at hlt
          exact h9 i' (by omega) hlt
      · left; simp [ha]
  fill := by
    rintro id m out n i hm ⟨m', h1, h2, h3, h4, h5, h6, h7, h8, h9⟩ hi
    rw [hm] at h1; cases h1
    have hk := List.getElem?_eq_getElem hi
    have hi' : i < n.lookups.length := by omega
    cases hkk : m.lookups[i] with
    | warp => left; simp [snOps, h2, hm, hk, hkk]
    | any =>
      right
      refine ⟨{ n with lookups := n.lookups.set i (some .dummy) }, by simp [snOps, h2, hm, hk, hkk, setAt, hi'], m, hm, h2, h3, by simpa using h4, h5, h6,
        ?_, ?_, ?_⟩
      · intro i' s hs
        by_cases hii : i = i'
        · subst hii
          simp [hi'] at hs
          subst hs
          exact ⟨_, hk, hkk⟩
        · simp only [List.getElem?_set_ne hii] at hs
          exact h7 i' s hs
      · intro i' hlt
        by_cases hii : i = i'
        · subst hii; simp [hi']
        · simp only [List.getElem?_set_ne hii]
          exact h8 i' (by omega)
      · intro i' hle hlt
        have hii : i ≠ i' := by omega
        simp only [List.getElem?_set_ne hii]
        simp at hlt
        exact h9 i' (by omega) hlt
  setHybNode := by
    rintro id m out n i c j hm ⟨m', h1, h2, h3, h4, h5, h6, h7, h8, h9⟩ hi hc
    rw [hm] at h1; cases h1
    have hi' : i < n.hybrids.length := by omega
    cases c with
    | none => left; rfl
    | some c =>
      refine Or.inr ⟨{ n with hybrids := n.hybrids.set i (some (.node c), n.hybrids[i].2) }, by simp [snOps, List.getElem?_eq_getElem hi'], m, hm, h2, h3, h4,
        by simpa using h5, ?_, h7, h8, h9⟩
      intro s v hk
      rcases List.mem_or_eq_of_mem_set hk with h | h
      · exact h6 s v h
      · simp at h
        exact ⟨c, h.1, hc c rfl⟩
  setHybVal := by
    rintro id m out n i v j hm ⟨m', h1, h2, h3, h4, h5, h6, h7, h8, h9⟩ hi
    rw [hm] at h1; cases h1
    have hi' : i < n.hybrids.length := by omega
    refine ⟨{ n with hybrids := n.hybrids.set i (none, v) }, by simp [snOps, List.getElem?_eq_getElem hi'], m, hm, h2, h3, h4,
      by simpa using h5, ?_, h7, h8, h9⟩
    intro s v' hk
    rcases List.mem_or_eq_of_mem_set hk with h | h
    · exact h6 s v' h
    · simp at h

end FastNoise.Deser
