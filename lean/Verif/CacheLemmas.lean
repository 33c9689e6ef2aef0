import Verif.CacheSpec
namespace FastNoise.Cache
variable {V : Type}

/-- What may be relied on inside `lev` caches: in each dimension, a record whose generator belongs at this level is right. -/
def Valid (obj : Nat → Key → V) (depth : Nat → Nat → Nat) (lev : Nat → Nat) (c : Caches V) : Prop :=
  ∀ d, (c d).gen ≠ 0 → depth (c d).gen d = lev d → (c d).val = obj (c d).gen (c d).key

/-- A step inside `lev` caches leaves generator pointers alone or puts ones of this level or deeper. -/
def Later (depth : Nat → Nat → Nat) (lev : Nat → Nat) (c c' : Caches V) : Prop :=
  ∀ d, (c' d).gen = (c d).gen ∨ lev d ≤ depth (c' d).gen d

theorem set_self (c : Caches V) (d : Nat) (e : Entry V) : set c d e d = e := if_pos rfl
theorem set_ne (c : Caches V) {d x : Nat} (e : Entry V) (h : x ≠ d) : set c d e x = c x := if_neg h

theorem Later.trans {depth : Nat → Nat → Nat} {n : Nat → Nat} {a b c : Caches V} (h1 : Later depth n a b) (h2 : Later depth n b c) : Later depth n a c := by
  intro d
  rcases h2 d with h | h
  · rcases h1 d with g | g
    · exact Or.inl (h.trans g)
    · exact Or.inr (by rw [h]; exact g)
  · exact Or.inr h

theorem prog_run {n : Nat} {f : Fin n → Key → Caches V → V × Caches V} {g : Fin n → Key → V} {obj : Nat → Key → V} {depth : Nat → Nat → Nat}
    {m : Nat → Nat} {P : Fin n → Key → Prop}
    (hf : ∀ i key c, P i key → Valid obj depth m c → (f i key c).1 = g i key ∧ Valid obj depth m (f i key c).2 ∧ Later depth m c (f i key c).2)
    (p : Prog V n) (hp : p.Asks P)
    (c : Caches V) (hc : Valid obj depth m c) : (p.run f c).1 = p.value g ∧ Valid obj depth m (p.run f c).2 ∧ Later depth m c (p.run f c).2 := by
  induction p generalizing c with
  | ret v => exact ⟨rfl, hc, fun _ => Or.inl rfl⟩
  | ask i key k ih =>
    obtain ⟨h1, h2, h3⟩ := hf i key c hp.1 hc
    obtain ⟨h4, h5, h6⟩ := ih (f i key c).1 (hp.2 _) (f i key c).2 h2
    simp only [Prog.run, Prog.value]
    exact ⟨by rw [h4, h1], h5, h3.trans h6⟩

theorem gen_value {obj : Nat → Key → V} {depth : Nat → Nat → Nat} (t : Tree V) (lev : Nat → Nat) (hs : t.Sound obj) (key : Key)
    (hg : t.Graded depth lev key) (c : Caches V) (hc : Valid obj depth lev c) :
    (t.gen key c).1 = t.value key ∧ Valid obj depth lev (t.gen key c).2 ∧ Later depth lev c (t.gen key c).2 := by
  induction t generalizing lev key c with
  | node k src prog ih => exact prog_run (fun i key c hg hc => ih i lev (hs i) key hg c hc) (prog key) hg c hc
  | cache addr src ih =>
    obtain ⟨⟨ha, hv, hk⟩, hs2⟩ := hs
    obtain ⟨hd, hg2⟩ := hg
    simp only [Tree.gen, Tree.value]
    split
    · next hit =>
      refine ⟨?_, hc, fun _ => Or.inl rfl⟩
      simp only
      rw [hc key.dim (by rw [hit.1]; exact ha) (by rw [hit.1]; exact hd), hit.1, hv]
      exact (hk _ _ hit.2).symm
    · simp only
      generalize hc1 : set c key.dim { c key.dim with gen := addr } = c1
      have g1 : (c1 key.dim).gen = addr := by rw [← hc1, set_self]
      have o1 : ∀ d, d ≠ key.dim → c1 d = c d := fun d h => by rw [← hc1, set_ne _ _ h]
      have dself : deeper lev key.dim key.dim = lev key.dim + 1 := if_pos rfl
      have dne : ∀ d, d ≠ key.dim → deeper lev key.dim d = lev d := fun d h => if_neg h
      have v1 : Valid obj depth (deeper lev key.dim) c1 := by
        intro d h0 h1
        by_cases e : d = key.dim
        · subst e; rw [g1, hd, dself] at h1; omega
        · rw [dne d e] at h1; rw [o1 d e] at h0 h1 ⊢; exact hc d h0 h1
      obtain ⟨h1, h2, h3⟩ := ih (deeper lev key.dim) hs2 key hg2 c1 v1
      refine ⟨h1, ?_, ?_⟩
      · intro d h0 h4
        by_cases e : d = key.dim
        · subst e
          rw [set_self] at h0 h4 ⊢
          simp only at h0 h4 ⊢
          rcases h3 key.dim with h | h
          · rw [h, g1, h1, hv]
          · rw [dself] at h; omega
        · rw [set_ne _ _ e] at h0 h4 ⊢
          exact h2 d h0 (by rw [dne d e]; exact h4)
      · intro d
        by_cases e : d = key.dim
        · subst e
          rw [set_self]
          simp only
          rcases h3 key.dim with h | h
          · right; rw [h, g1, hd]; exact Nat.le_refl _
          · right; rw [dself] at h; omega
        · rw [set_ne _ _ e]
          rcases h3 d with h | h
          · left; rw [h, o1 d e]
          · right; rw [dne d e] at h; exact h

theorem graded_free {depth : Nat → Nat → Nat} (t : Tree V) (h : t.CacheFree) (lev : Nat → Nat) (key : Key) : t.Graded depth lev key := by
  induction t generalizing lev key with
  | node n src prog ih =>
    simp only [Tree.Graded]
    generalize prog key = p
    induction p with
    | ret v => trivial
    | ask i k kk ih2 => exact ⟨ih i (h i) lev k, ih2⟩
  | cache addr src => exact h.1.elim

theorem graded_notNested (t : Tree V) (h : t.NotNested) (key : Key) : t.Graded (fun _ _ => 0) (fun _ => 0) key := by
  induction t generalizing key with
  | node n src prog ih =>
    simp only [Tree.Graded]
    generalize prog key = p
    induction p with
    | ret v => trivial
    | ask i k kk ih2 => exact ⟨ih i (h i) k, ih2⟩
  | cache addr src => exact ⟨rfl, graded_free src h.1 _ key⟩

end FastNoise.Cache
