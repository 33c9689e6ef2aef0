import Verif.CacheLemmas

/-! # C19: inserting a GeneratorCache does not change output -/

namespace FastNoise.Cache

variable {V : Type}

theorem valid_fresh (obj : Nat → Key → V) (depth : Nat → Nat → Nat) (lev : Nat → Nat) (lanes : Nat) (zero : V) : Valid obj depth lev (fresh lanes zero) :=
  fun _ h _ => absurd rfl h

/-- **C19** (general form): for any sequence of queries on a thread, of any trees with any number of caches, the values are those of the
trees without caches, provided that no cache is met inside different numbers of other caches of its dimension (`Graded`), and cached
sources do not tell `-0.0` from `0.0` and do not change (`Sound`). -/
theorem C19_cache_transparent_partial (obj : Nat → Key → V) (depth : Nat → Nat → Nat) (lanes : Nat) (zero : V) (l : List (Tree V × Key))
    (hs : ∀ x ∈ l, x.1.Sound obj) (hg : ∀ x ∈ l, x.1.Graded depth (fun _ => 0) x.2) :
    history (fresh lanes zero) l = l.map fun x => x.1.value x.2 := by
  have key : ∀ (l : List (Tree V × Key)) (c : Caches V), Valid obj depth (fun _ => 0) c → (∀ x ∈ l, x.1.Sound obj) →
      (∀ x ∈ l, x.1.Graded depth (fun _ => 0) x.2) → history c l = l.map fun x => x.1.value x.2 := by
    intro l
    induction l with
    | nil => intros; rfl
    | cons x l ih =>
      intro c hc hs hg
      obtain ⟨h1, h2, _⟩ := gen_value x.1 (fun _ => 0) (hs x (by simp)) x.2 (hg x (by simp)) c hc
      simp only [history, List.map_cons]
      rw [h1, ih _ h2 (fun y hy => hs y (by simp [hy])) (fun y hy => hg y (by simp [hy]))]
  exact key l _ (valid_fresh obj depth _ lanes zero) hs hg

/-- **C19** for trees in which no cache lies below another cache (any number of caches, shared or not, any query history). -/
theorem C19_not_nested_partial (obj : Nat → Key → V) (lanes : Nat) (zero : V) (l : List (Tree V × Key))
    (hs : ∀ x ∈ l, x.1.Sound obj) (hn : ∀ x ∈ l, x.1.NotNested) :
    history (fresh lanes zero) l = l.map fun x => x.1.value x.2 :=
  C19_cache_transparent_partial obj (fun _ _ => 0) lanes zero l hs fun x hx => graded_notNested x.1 (hn x hx) x.2

/-- Keys without negative zeros are distinguished exactly, so that `Sound` asks nothing about sources only queried there. -/
theorem feq_eq {a b : UInt32} (h : feq a b = true) (ha : a ≠ 0x80000000) (hb : b ≠ 0x80000000) : a = b := by
  unfold feq at h
  simp only at h
  split at h
  · cases h
  · split at h
    · next hz =>
      have key : ∀ x : UInt32, x &&& 0x7fffffff = 0 → x ≠ 0x80000000 → x = 0 := by
        intro x hx hne
        have h1 : x.toNat % 2 ^ 31 = 0 := by
          have := congrArg UInt32.toNat hx
          rw [UInt32.toNat_and] at this
          have e : (0x7fffffff : UInt32).toNat = 2 ^ 31 - 1 := by decide
          rw [e, Nat.and_two_pow_sub_one_eq_mod] at this
          exact this
        have h2 := x.toNat_lt
        have h3 : x.toNat ≠ 2 ^ 31 := fun e => hne (UInt32.toNat_inj.mp e)
        apply UInt32.toNat_inj.mp
        show x.toNat = 0
        omega
      simp only [Bool.and_eq_true, decide_eq_true_eq] at hz
      rw [key a hz.1 ha, key b hz.2 hb]
    · simpa using h

/-! ### Trees for the examples -/

def prim (f : Key → V) : Tree V := .node 0 Fin.elim0 fun k => .ret (f k)

/-- `Add`-like node: both sources at the same place. -/
def both (op : V → V → V) (a b : Tree V) : Tree V :=
  .node 2 (fun i => if i = 0 then a else b) fun k => .ask 0 k fun u => .ask 1 k fun v => .ret (op u v)

def at1 (x : UInt32) : Key := ⟨[1337], [[x], [x]]⟩

/-- A shared cache under an `Add`, queried repeatedly, meets the hypotheses. -/
example : let p : Tree Nat := prim fun k => (k.pos.map fun l => (l.map fun u => if u = 0x80000000 then 0 else u.toNat).sum).sum
    let t := both (· + ·) (.cache 100 p) (.cache 100 p)
    t.NotNested ∧ t.Sound (fun _ k => p.value k) ∧ history (fresh 1 0) [(t, at1 5), (t, at1 5), (t, at1 6)] = [20, 20, 24] := by
  refine ⟨?_, ?_, by decide +kernel⟩
  · intro i
    by_cases h : i = 0 <;> simp [h, Tree.AllCaches, Tree.CacheFree, prim] <;> exact fun j => j.elim0
  · have hresp : ∀ k k', sameKey k k' = true →
        ((k.pos.map fun l => (l.map fun u : UInt32 => if u = 0x80000000 then 0 else u.toNat).sum).sum) =
        ((k'.pos.map fun l => (l.map fun u : UInt32 => if u = 0x80000000 then 0 else u.toNat).sum).sum) := by
      intro k k' h
      have h1 : ∀ a b, feq a b = true → (if a = 0x80000000 then 0 else a.toNat) = (if b = 0x80000000 then 0 else b.toNat) := by
        intro a b hab
        by_cases ea : a = 0x80000000
        · by_cases eb : b = 0x80000000
          · rw [ea, eb]
          · rw [if_pos ea, if_neg eb]
            subst ea
            unfold feq at hab
            simp only at hab
            split at hab
            · cases hab
            · split at hab
              · next hz =>
                simp only [Bool.and_eq_true, decide_eq_true_eq] at hz
                have : feq b 0 = true := by
                  unfold feq
                  simp only [hz.2]
                  rw [if_neg (by decide), if_pos (by decide)]
                have hb0 := feq_eq this eb (by decide)
                rw [hb0]; rfl
              · simp only [decide_eq_true_eq] at hab; exact absurd hab.symm eb
        · by_cases eb : b = 0x80000000
          · rw [if_neg ea, if_pos eb]
            subst eb
            unfold feq at hab
            simp only at hab
            split at hab
            · cases hab
            · split at hab
              · next hz =>
                simp only [Bool.and_eq_true, decide_eq_true_eq] at hz
                have : feq a 0 = true := by
                  unfold feq
                  simp only [hz.1]
                  rw [if_neg (by decide), if_pos (by decide)]
                have hb0 := feq_eq this ea (by decide)
                rw [hb0]; rfl
              · simp only [decide_eq_true_eq] at hab; exact absurd hab ea
          · rw [feq_eq hab ea eb]
      have h2 : ∀ (x y : List UInt32), x.length = y.length → (x.zip y).all (fun p => feq p.1 p.2) = true →
          (x.map fun u : UInt32 => if u = 0x80000000 then 0 else u.toNat).sum = (y.map fun u : UInt32 => if u = 0x80000000 then 0 else u.toNat).sum := by
        intro x
        induction x with
        | nil => intro y hl _; cases y with
          | nil => rfl
          | cons => cases hl
        | cons u x ih => intro y hl hz; cases y with
          | nil => cases hl
          | cons v y =>
            simp only [List.zip_cons_cons, List.all_cons, Bool.and_eq_true] at hz
            simp only [List.map_cons, List.sum_cons]
            rw [h1 u v hz.1, ih y (by simpa using hl) hz.2]
      simp only [sameKey, Bool.and_eq_true, decide_eq_true_eq] at h
      obtain ⟨⟨_, hl⟩, hz⟩ := h
      generalize k.pos = x at hl hz
      generalize k'.pos = y at hl hz
      induction x generalizing y with
      | nil => cases y with
        | nil => rfl
        | cons => cases hl
      | cons u x ih => cases y with
        | nil => cases hl
        | cons v y =>
          simp only [List.zip_cons_cons, List.all_cons, Bool.and_eq_true, decide_eq_true_eq] at hz
          simp only [List.map_cons, List.sum_cons]
          rw [h2 u v hz.1.1 hz.1.2, ih y (by simpa using hl) hz.2]
    have hcs : (Tree.cache 100 (prim fun k : Key => (k.pos.map fun l => (l.map fun u : UInt32 => if u = 0x80000000 then 0 else u.toNat).sum).sum)).Sound
        (fun _ k => (prim fun k : Key => (k.pos.map fun l => (l.map fun u : UInt32 => if u = 0x80000000 then 0 else u.toNat).sum).sum).value k) := by
      refine ⟨⟨by decide, rfl, fun k k' h => ?_⟩, fun j => j.elim0⟩
      exact hresp k k' h
    intro i
    by_cases h : i = 0
    · simp only [h, if_true]; exact hcs
    · simp only [h, if_false]; exact hcs

/-! ### What the code does not give -/

/-- **C19 fails for nested caches**: `Add( Cache1( P + Cache2( P ) ), Cache2( P ) )` with `P` constantly 1 should be 3 everywhere. -/
theorem C19_nested_caches_wrong : let p : Tree Nat := prim fun _ => 1
    let c2 := Tree.cache 100 p
    let t := both (· + ·) (.cache 200 (both (· + ·) p c2)) c2
    t.value (at1 5) = 3 ∧ (t.gen (at1 5) (fresh 1 0)).1 = 4 := by decide +kernel

/-- **C19 fails when the source changes** (a setter is called, or the source is freed and another node takes its address): the next
query at the same place returns the old value. -/
theorem C19_stale_after_change : let old : Tree Nat := .cache 100 (prim fun _ => 1)
    let new : Tree Nat := .cache 100 (prim fun _ => 2)
    new.value (at1 5) = 2 ∧ history (fresh 1 0) [(old, at1 5), (new, at1 5)] = [1, 1] := by decide +kernel

/-- **C19 fails for sources that depend on the bits of the position** (White does): `-0.0` after `0.0` gets the cached value. -/
theorem C19_negative_zero : let t : Tree Nat := .cache 100 (prim fun k => if k.pos = [[0x80000000], [0x80000000]] then 1 else 2)
    t.value (at1 0x80000000) = 1 ∧ history (fresh 1 0) [(t, at1 0), (t, at1 0x80000000)] = [2, 2] := by decide +kernel

/-- Nesting as such is harmless when the inner cache is used only inside the outer one (`Graded` with depth 1 for the inner cache). -/
example : let p : Tree Nat := prim fun _ => 1
    let t : Tree Nat := .cache 200 (both (· + ·) (.cache 100 p) (.cache 100 p))
    ¬ t.NotNested ∧ t.Graded (fun a _ => if a = 100 then 1 else 0) (fun _ => 0) (at1 5) := by
  refine ⟨fun h => ?_, rfl, ⟨by decide, trivial⟩, fun _ => ⟨⟨by decide, trivial⟩, fun _ => trivial⟩⟩
  have := h.1 0
  exact this.1

end FastNoise.Cache
