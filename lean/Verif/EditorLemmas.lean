import Verif.Editor
import Verif.FixUpProps
import Mathlib.Tactic.NormNum
import Mathlib.Data.List.Basic
/-! # Lemmas about the editor model -/
namespace FastNoise.Editor
open FastNoise.Ser FastNoise.Deser FastNoise.Stream FastNoise.Spec FastNoise.RT
open Relation

/-! ## Ids -/

theorem maxId_eq : maxId = 8388607 := by decide

theorem nextId_eq {n : Nat} (h : n ≤ maxId) : nextId n = n % maxId + 1 := by
  unfold nextId
  rw [maxId_eq] at *
  rw [show (8388607 : Nat) = 2 ^ 23 - 1 by norm_num, Nat.and_two_pow_sub_one_eq_mod]
  rcases Nat.lt_or_ge n 8388607 with h1 | h1
  · rw [Nat.mod_eq_of_lt (by norm_num; omega), Nat.mod_eq_of_lt (by norm_num; omega)]
    omega
  · have : n = 8388607 := by omega
    subst this; norm_num

theorem nextId_range {n : Nat} (h : n ≤ maxId) : 1 ≤ nextId n ∧ nextId n ≤ maxId := by
  rw [nextId_eq h]
  have : n % maxId < maxId := Nat.mod_lt _ (by rw [maxId_eq]; norm_num)
  omega

theorem freeId_spec (used : List Nat) : ∀ (fuel n : Nat), n ≤ maxId → ∀ r, freeId used fuel n = some r → r ∉ used ∧ 1 ≤ r ∧ r ≤ maxId := by
  intro fuel
  induction fuel with
  | zero => intro n _ r h; simp [freeId] at h
  | succ f ih =>
    intro n hn r h
    rw [freeId] at h
    split_ifs at h with hm
    · exact ih _ (nextId_range hn).2 r h
    · cases h; exact ⟨hm, nextId_range hn⟩

/-- The loop misses nothing: `k` turns that fail show the next `k` ids are used. -/
theorem freeId_none (used : List Nat) : ∀ (fuel n : Nat), n ≤ maxId → freeId used fuel n = none → ∀ k < fuel, (n + k) % maxId + 1 ∈ used := by
  intro fuel
  induction fuel with
  | zero => intro n _ _ k hk; omega
  | succ f ih =>
    intro n hn h k hk
    rw [freeId] at h
    split_ifs at h with hm
    cases k with
    | zero => rw [nextId_eq hn] at hm; simpa using hm
    | succ k =>
      have := ih _ (nextId_range hn).2 h k (by omega)
      rw [nextId_eq hn] at this
      have e : (n % maxId + 1 + k) % maxId = (n + (k + 1)) % maxId := by
        rw [show n % maxId + 1 + k = n % maxId + (1 + k) by omega, Nat.mod_add_mod]; congr 1; omega
      rw [e] at this; exact this

theorem freeId_total (used : List Nat) (n : Nat) (hn : n ≤ maxId) (i : Nat) (hi : 1 ≤ i ∧ i ≤ maxId) (hu : i ∉ used) (fuel : Nat) (hf : maxId ≤ fuel) :
    ∃ r, freeId used fuel n = some r := by
  cases h : freeId used fuel n with
  | some r => exact ⟨r, rfl⟩
  | none =>
    exfalso
    have hM : 0 < maxId := by rw [maxId_eq]; norm_num
    -- k with (n + k) % M = i - 1
    have := freeId_none used fuel n hn h ((i - 1 + (maxId - n % maxId)) % maxId) (lt_of_lt_of_le (Nat.mod_lt _ hM) hf)
    have hlt : n % maxId < maxId := Nat.mod_lt _ hM
    have e : (n + (i - 1 + (maxId - n % maxId)) % maxId) % maxId = i - 1 := by
      rw [Nat.add_mod_mod, Nat.add_mod, Nat.add_mod_mod] 
      rw [← Nat.add_mod_mod, ← Nat.add_mod]
      have hdm := Nat.div_add_mod n maxId
      have : n + (i - 1 + (maxId - n % maxId)) = (i - 1) + maxId * (n / maxId + 1) := by
        rw [Nat.mul_add, Nat.mul_one]; omega
      rw [this, Nat.add_mul_mod_self_left, Nat.mod_eq_of_lt (by omega)]
    rw [e, show i - 1 + 1 = i by omega] at this
    exact hu this

theorem freeId_mono (used : List Nat) : ∀ (f f' n r : Nat), f ≤ f' → freeId used f n = some r → freeId used f' n = some r := by
  intro f
  induction f with
  | zero => intro f' n r _ h; simp [freeId] at h
  | succ f ih =>
    intro f' n r hle h
    cases f' with
    | zero => omega
    | succ f' =>
      rw [freeId] at h ⊢
      split_ifs at h ⊢ with hm
      · exact ih _ _ _ (by omega) h
      · exact h

theorem startAttr_eq {id : Nat} (h : id ≤ maxId) : startAttr id = id * 256 := by
  unfold startAttr attributeBitCount
  rw [maxId_eq] at h
  rw [Nat.shiftLeft_eq, show (2 : Nat) ^ 8 = 256 by norm_num, Nat.mod_eq_of_lt]
  norm_num; omega

theorem attr_low {id k : Nat} (h : id ≤ maxId) (hk : k < 16) : (startAttr id + k) &&& 15 = k := by
  rw [startAttr_eq h, show (15 : Nat) = 2 ^ 4 - 1 by norm_num, Nat.and_two_pow_sub_one_eq_mod]
  norm_num; omega

/-! ## Links only disappear -/

/-- `A'` is `A` with some links removed. -/
abbrev Less (A A' : Arena) : Prop := Sub (fun _ _ _ => True) (fun _ _ => True) A A'
abbrev NLess (n n' : NodeData) : Prop := NodeSub (fun _ _ => True) (fun _ => True) n n'

theorem Less.refl (A : Arena) : Less A A := Sub.refl _ _ A
theorem Less.trans {A B C : Arena} (h1 : Less A B) (h2 : Less B C) : Less A C where
  len := h2.len.trans h1.len
  node p n0 n h0 hn := by
    obtain ⟨m, hm, hs⟩ := h1.get h0
    exact hs.trans (h2.node p m n hm hn)

theorem Less.of_sub {J K} {A B : Arena} (h : Sub J K A B) : Less A B :=
  ⟨h.len, fun p n0 n h0 hn => ⟨(h.node p n0 n h0 hn).md, (h.node p n0 n h0 hn).vars, (h.node p n0 n h0 hn).llen,
    fun i a b ha hb => ((h.node p n0 n h0 hn).lk i a b ha hb).imp id (fun ⟨e, c, e', _⟩ => ⟨e, c, e', trivial⟩), (h.node p n0 n h0 hn).hlen,
    fun i a b ha hb => ⟨((h.node p n0 n h0 hn).hy i a b ha hb).1, ((h.node p n0 n h0 hn).hy i a b ha hb).2.imp id (fun ⟨e, c, e', _⟩ => ⟨e, c, e', trivial⟩)⟩⟩⟩

theorem Less.set {A : Arena} {p : Nat} {n n' : NodeData} (hn : A[p]? = some n) (hs : NLess n n') : Less A (A.set p n') := Sub.set (Less.refl A) hn hs

theorem Less.reach {A B : Arena} (h : Less A B) {p q : Nat} (hr : Reach B p q) : Reach A p q := ReflTransGen.mono (fun _ _ hl => h.link hl) _ _ hr
theorem Less.trans_gen {A B : Arena} (h : Less A B) {p q : Nat} (hr : TransGen (LinkND B) p q) : TransGen (LinkND A) p q := TransGen.mono (fun _ _ hl => h.link hl) _ _ hr

theorem nless_setLookup (n : NodeData) (i : Nat) : NLess n { n with lookups := n.lookups.set i none } where
  md := rfl
  vars := rfl
  llen := by simp
  lk := by
    intro j a b ha hb
    rw [List.getElem?_set] at hb
    split_ifs at hb with e h
    · cases hb
      cases a with
      | none => exact Or.inl rfl
      | some c => exact Or.inr ⟨rfl, c, rfl, trivial⟩
    · rw [ha] at hb; cases hb; exact Or.inl rfl
  hlen := rfl
  hy := by intro j a b ha hb; simp only at hb; rw [ha] at hb; cases hb; exact ⟨rfl, Or.inl rfl⟩

theorem nless_setHybrid (n : NodeData) (i : Nat) (h : Option Nat × UInt32) (hi : n.hybrids[i]? = some h) :
    NLess n { n with hybrids := n.hybrids.set i (none, h.2) } where
  md := rfl
  vars := rfl
  llen := rfl
  lk := by intro j a b ha hb; simp only at hb; rw [ha] at hb; cases hb; exact Or.inl rfl
  hlen := by simp
  hy := by
    intro j a b ha hb
    rw [List.getElem?_set] at hb
    split_ifs at hb with e hl
    · cases hb; subst e; rw [hi] at ha; cases ha
      refine ⟨rfl, ?_⟩
      cases h1 : h.1 with
      | none => exact Or.inl rfl
      | some c => exact Or.inr ⟨rfl, c, rfl, trivial⟩
    · rw [ha] at hb; cases hb; exact ⟨rfl, Or.inl rfl⟩

theorem less_lookups {reg : Reg} {rec : Nat → List Nat → St → SR} {ptr : Nat} {deps : List Nat}
    (hrec : ∀ c d st b st', rec c d st = .done b st' → Less st.arena st'.arena) : ∀ (ks : List Kind) (i : Nat) (st : St) b st',
    serLookups reg true rec ptr deps i ks st = .done b st' → Less st.arena st'.arena := by
  intro ks
  induction ks with
  | nil => intro i st b st' h; simp only [serLookups] at h; cases h; exact Less.refl _
  | cons k ks ih =>
    intro i st b st' h
    rw [serLookups] at h
    split at h
    · cases h
    · rename_i nd hnd
      split at h
      · cases h
      · cases h; exact Less.refl _
      · rename_i child hc
        split at h
        · cases h
        · cases h; exact Less.set hnd (nless_setLookup nd i)
        · split at h
          · rename_i st1 hr
            exact (hrec _ _ _ _ _ hr).trans (ih _ _ _ _ h)
          · rename_i r hne
            exact hrec _ _ _ _ _ h

theorem less_hybrids {reg : Reg} {rec : Nat → List Nat → St → SR} {ptr : Nat} {deps : List Nat}
    (hrec : ∀ c d st b st', rec c d st = .done b st' → Less st.arena st'.arena) : ∀ (ds : List UInt32) (i : Nat) (st : St) b st',
    serHybrids reg true rec ptr deps i ds st = .done b st' → Less st.arena st'.arena := by
  intro ds
  induction ds with
  | nil => intro i st b st' h; simp only [serHybrids] at h; cases h; exact Less.refl _
  | cons k ks ih =>
    intro i st b st' h
    rw [serHybrids] at h
    split at h
    · cases h
    · rename_i nd hnd
      split at h
      · cases h
      · have := ih _ _ _ _ h
        exact this
      · rename_i child v hc
        split at h
        · cases h
        · cases h; exact Less.set hnd (nless_setHybrid nd i _ hc)
        · split at h
          · rename_i st1 hr
            have := hrec _ _ _ _ _ hr
            exact this.trans (ih _ _ _ _ h)
          · rename_i r hne
            exact hrec _ _ { st with ws := st.ws.addLookup tHybridLookup i } _ _ h

theorem less_ser {reg : Reg} : ∀ (fuel ptr : Nat) (deps : List Nat) (st : St) b st', ser reg true fuel ptr deps st = .done b st' → Less st.arena st'.arena := by
  intro fuel
  induction fuel with
  | zero => intro ptr deps st b st' h; simp [ser] at h
  | succ f ih =>
    intro ptr deps st b st' h
    rw [ser] at h
    split at h
    · cases h
    · rename_i nd hnd
      split at h
      · cases h; exact Less.refl _
      · split at h
        · cases h
        · rename_i m hm
          split at h
          · cases h; exact Less.refl _
          · simp only [if_true] at h
            have h0 : Less st.arena (st.arena.set ptr (cutLoops (ptr :: deps) nd)) := Less.set hnd (cut_sub (fun _ _ _ _ => trivial) (fun _ _ _ => trivial))
            split at h
            · cases h; exact h0
            · split at h
              · rename_i st1 h1
                have l1 := less_lookups (fun c d st b st' h => ih c d st b st' h) _ _ _ _ _ h1
                split at h
                · rename_i st2 h2
                  have l2 := less_hybrids (fun c d st b st' h => ih c d st b st' h) _ _ _ _ _ h2
                  cases h
                  exact h0.trans (l1.trans l2)
                · have l2 := less_hybrids (fun c d st b st' h => ih c d st b st' h) _ _ _ _ _ h
                  exact h0.trans (l1.trans l2)
              · have l1 := less_lookups (fun c d st b st' h => ih c d st b st' h) _ _ _ _ _ h
                exact h0.trans l1

theorem fixOne_less {reg : Reg} {p : Nat} {A A' : Arena} (h : fixOne reg p A = .ok A') : Less A A' := by
  unfold fixOne serStream at h
  cases hs : ser reg true (A.length + 1) p [] { arena := A, ws := { stream := [], stack := 0 }, refs := [] } with
  | ub => rw [hs] at h; cases h
  | nofuel => rw [hs] at h; cases h
  | done b st =>
    have := less_ser _ _ _ _ _ _ hs
    rw [hs] at h
    cases b <;> (simp only at h; cases h; exact this)

/-- With live nodes below `p` the serialisation completes. -/
theorem fixOne_ok {reg : Reg} {p : Nat} {A : Arena} (h : HasMetadata reg A p) : ∃ A', fixOne reg p A = .ok A' := by
  obtain ⟨b, st, e, _⟩ := fix_core h
  exact ⟨st.arena, by unfold fixOne; rw [e]⟩

/-! ## Loops -/

theorem forEach_less {α : Type} {f : α → Arena → Out Arena} {l : List α} (hf : ∀ x ∈ l, ∀ A A', f x A = .ok A' → Less A A') :
    ∀ A A', forEach f l A = .ok A' → Less A A' := by
  induction l with
  | nil => intro A A' h; simp only [forEach] at h; cases h; exact Less.refl _
  | cons x xs ih =>
    intro A A' h
    rw [forEach] at h
    cases hx : f x A with
    | ub => rw [hx] at h; cases h
    | deep => rw [hx] at h; cases h
    | ok B =>
      rw [hx] at h
      exact (hf x (by simp) A B hx).trans (ih (fun y hy => hf y (by simp [hy])) B A' h)

/-- Each element's turn in a completed loop. -/
theorem forEach_mem {α : Type} {f : α → Arena → Out Arena} {l : List α} (hf : ∀ x ∈ l, ∀ A A', f x A = .ok A' → Less A A') :
    ∀ A A', forEach f l A = .ok A' → ∀ x ∈ l, ∃ B B', Less A B ∧ f x B = .ok B' ∧ Less B' A' := by
  induction l with
  | nil => intro A A' _ x hx; cases hx
  | cons y ys ih =>
    intro A A' h x hx
    rw [forEach] at h
    cases hy : f y A with
    | ub => rw [hy] at h; cases h
    | deep => rw [hy] at h; cases h
    | ok B =>
      rw [hy] at h
      have hl := fun z hz => hf z (List.mem_cons_of_mem y hz)
      rcases List.mem_cons.mp hx with rfl | hx
      · exact ⟨A, B, Less.refl _, hy, forEach_less hl B A' h⟩
      · obtain ⟨C, C', h1, h2, h3⟩ := ih hl B A' h x hx
        exact ⟨C, C', (hf y (by simp) A B hy).trans h1, h2, h3⟩

theorem forEach_safe {α : Type} {f : α → Arena → Out Arena} {P : Arena → Prop} {l : List α} (bad : Out Arena) (hbad : ∀ A, bad ≠ .ok A)
    (hf : ∀ x ∈ l, ∀ A, P A → f x A ≠ bad ∧ ∀ A', f x A = .ok A' → P A') :
    ∀ A, P A → forEach f l A ≠ bad := by
  induction l with
  | nil => intro A _ h; exact hbad A h.symm
  | cons x xs ih =>
    intro A hP
    rw [forEach]
    obtain ⟨h1, h2⟩ := hf x (by simp) A hP
    cases hx : f x A with
    | ub => rw [hx] at h1; exact h1
    | deep => rw [hx] at h1; exact h1
    | ok B => exact ih (fun y hy => hf y (by simp [hy])) B (h2 B hx)

/-! ## Previews -/

theorem preview_less {reg : Reg} {order : List Nat} : ∀ (fuel p : Nat) (A A' : Arena), preview reg order fuel p A = .ok A' → Less A A' := by
  intro fuel
  induction fuel with
  | zero => intro p A A' h; simp [preview] at h
  | succ f ih =>
    intro p A A' h
    rw [preview] at h
    cases hx : fixOne reg p A with
    | ub => rw [hx] at h; cases h
    | deep => rw [hx] at h; cases h
    | ok B =>
      rw [hx] at h
      refine (fixOne_less hx).trans (forEach_less ?_ B A' h)
      intro q _ C C' hC
      split at hC
      · cases hC
      · refine forEach_less ?_ C C' hC
        intro l _ D D' hD
        split_ifs at hD
        · exact ih _ _ _ hD
        · cases hD; exact Less.refl _

theorem mem_links {nd : NodeData} {c : Nat} : some c ∈ links nd ↔ NLink nd c := by
  unfold links NLink
  simp [List.mem_append, List.mem_map]

/-- A completed preview of `p` has made the preview of everything that still uses `p`. -/
theorem preview_users {reg : Reg} {order : List Nat} {fuel p : Nat} {A A' : Arena} (h : preview reg order (fuel + 1) p A = .ok A') {q : Nat} (hq : q ∈ order)
    (hl : LinkND A' q p) : ∃ B B', preview reg order fuel q B = .ok B' ∧ Less B' A' := by
  rw [preview] at h
  cases hx : fixOne reg p A with
  | ub => rw [hx] at h; cases h
  | deep => rw [hx] at h; cases h
  | ok B =>
    rw [hx] at h
    have inner : ∀ x ∈ order, ∀ C C', (match C[x]? with
        | none => Out.ub
        | some nd => forEach (fun l A => if l = some p then preview reg order fuel x A else .ok A) (links nd) C) = .ok C' → Less C C' := by
      intro x _ C C' hC
      split at hC
      · cases hC
      · refine forEach_less ?_ C C' hC
        intro l _ D D' hD
        split_ifs at hD
        · exact preview_less _ _ _ _ hD
        · cases hD; exact Less.refl _
    obtain ⟨C, C', h1, h2, h3⟩ := forEach_mem inner B A' h q hq
    split at h2
    · cases h2
    · rename_i nd hnd
      have hCA : Less C A' := (inner q hq C C' (by simp only [hnd]; exact h2)).trans h3
      have hmem : some p ∈ links nd := mem_links.mpr ((linkND_iff hnd).mp (hCA.link hl))
      obtain ⟨D, D', _, h5, h6⟩ := forEach_mem (l := links nd) (by
        intro l _ D D' hD
        split_ifs at hD
        · exact preview_less _ _ _ _ hD
        · cases hD; exact Less.refl _) C C' h2 (some p) hmem
      simp only [if_true] at h5
      exact ⟨D, D', h5, h6.trans h3⟩

/-- `q` leads to `p` in `n` links, all from nodes of `order`. -/
inductive Path (A : Arena) (order : List Nat) : Nat → Nat → Nat → Prop
  | nil {p} : Path A order 0 p p
  | snoc {n q r p} : Path A order n q r → r ∈ order → LinkND A r p → Path A order (n + 1) q p

theorem Path.mono {A B : Arena} {order : List Nat} (h : Less A B) {n q p : Nat} (hp : Path B order n q p) : Path A order n q p := by
  induction hp with
  | nil => exact .nil
  | snoc _ h1 h2 ih => exact .snoc ih h1 (h.link h2)

theorem Path.append {A : Arena} {order : List Nat} {n m q r p : Nat} (h1 : Path A order n q r) (h2 : Path A order m r p) : Path A order (n + m) q p := by
  induction h2 with
  | nil => exact h1
  | snoc _ a b ih => exact .snoc (ih h1) a b

/-- The recursion is as deep as the longest chain of users. -/
theorem preview_depth {reg : Reg} {order : List Nat} : ∀ (fuel p : Nat) (A A' : Arena), preview reg order fuel p A = .ok A' →
    ∀ n q, Path A' order n q p → n < fuel := by
  intro fuel
  induction fuel with
  | zero => intro p A A' h; simp [preview] at h
  | succ f ih =>
    intro p A A' h n q hp
    cases hp with
    | nil => omega
    | snoc h1 h2 h3 =>
      obtain ⟨B, B', hB, hl⟩ := preview_users h h2 h3
      have := ih _ _ _ hB _ _ (h1.mono hl)
      omega

theorem path_of_transGen {A : Arena} {order : List Nat} {p q : Nat} (h : TransGen (LinkND A) q p) (hs : ∀ r, TransGen (LinkND A) q r → r ∈ order) (hq : q ∈ order) :
    ∃ n, 0 < n ∧ Path A order n q p := by
  induction h with
  | single hl => exact ⟨1, by omega, .snoc .nil hq hl⟩
  | tail h1 h2 ih =>
    obtain ⟨n, _, hp⟩ := ih
    exact ⟨n + 1, by omega, .snoc hp (hs _ h1) h2⟩

/-- A completed preview leaves no cycle through `p`. -/
theorem preview_no_cycle {reg : Reg} {order : List Nat} {fuel p : Nat} {A A' : Arena} (h : preview reg order fuel p A = .ok A')
    (hs : ∀ r, Reach A' p r → r ∈ order) : ¬ TransGen (LinkND A') p p := by
  intro hc
  obtain ⟨n, hn, hp⟩ := path_of_transGen hc (fun r hr => hs r hr.to_reflTransGen) (hs p .refl)
  have many : ∀ k, Path A' order (n * k) p p := by
    intro k
    induction k with
    | zero => exact .nil
    | succ k ih => rw [Nat.mul_succ]; exact ih.append hp
  have := preview_depth fuel p A A' h _ _ (many fuel)
  have : fuel ≤ n * fuel := Nat.le_mul_of_pos_left _ hn
  omega

/-- Everything that leads to `p` has live nodes below it. -/
def Safe (reg : Reg) (A : Arena) (p : Nat) : Prop := ∀ d, Reach A d p → HasMetadata reg A d

theorem HasMetadata.less {reg : Reg} {A B : Arena} (h : HasMetadata reg A p) (hl : Less A B) : HasMetadata reg B p := by
  intro q hq
  obtain ⟨nd, id, m, a, b, c⟩ := h q (hl.reach hq)
  obtain ⟨n, hn, hs⟩ := hl.get a
  exact ⟨n, id, m, hn, by rw [hs.md]; exact b, c⟩

theorem Safe.less {reg : Reg} {A B : Arena} {p : Nat} (h : Safe reg A p) (hl : Less A B) : Safe reg B p :=
  fun d hd => HasMetadata.less (h d (hl.reach hd)) hl

theorem preview_safe {reg : Reg} {order : List Nat} : ∀ (fuel p : Nat) (A : Arena), Safe reg A p → (∀ q ∈ order, q < A.length) →
    preview reg order fuel p A ≠ .ub := by
  intro fuel
  induction fuel with
  | zero => intro p A _ _; simp [preview]
  | succ f ih =>
    intro p A hs ho
    rw [preview]
    obtain ⟨B, hB⟩ := fixOne_ok (hs p .refl)
    have hAB := fixOne_less hB
    rw [hB]
    simp only [Out.bind]
    refine forEach_safe (P := fun C => Less A C) .ub (by intro A h; cases h) ?_ B hAB
    intro q hq C hC
    have hlt : q < C.length := by rw [hC.len]; exact ho q hq
    rw [List.getElem?_eq_getElem hlt]
    simp only
    constructor
    · by_cases hm : some p ∈ links C[q]
      · have hlink : LinkND C q p := ⟨C[q], List.getElem?_eq_getElem hlt, mem_links.mp hm⟩
        refine forEach_safe (P := fun D => Less C D) .ub (by intro A h; cases h) ?_ C (Less.refl _)
        intro l _ D hD
        split_ifs
        · refine ⟨ih q D ?_ (by rw [(hC.trans hD).len]; exact ho), fun E hE => hD.trans (preview_less _ _ _ _ hE)⟩
          intro d hd
          have : Reach C d p := (hD.reach hd).tail hlink
          exact HasMetadata.less (hs.less hC d this) hD
        · exact ⟨(by intro h; cases h), fun E hE => by cases hE; exact hD⟩
      · refine forEach_safe (P := fun _ => True) .ub (by intro A h; cases h) ?_ C trivial
        intro l hl D _
        have : l ≠ some p := by rintro rfl; exact hm hl
        rw [if_neg this]
        exact ⟨(by intro h; cases h), fun _ _ => trivial⟩
    · intro C' hC'
      refine hC.trans (forEach_less ?_ C C' hC')
      intro l _ D D' hD
      split_ifs at hD
      · exact preview_less _ _ _ _ hD
      · cases hD; exact Less.refl _

/-- Without cycles the recursion stops. -/
theorem preview_stops {reg : Reg} {order : List Nat} {L : List Nat} (hL : ∀ q ∈ order, q ∈ L) {A0 : Arena}
    (hac : ∀ q ∈ L, ¬ TransGen (LinkND A0) q q) : ∀ (fuel p : Nat) (A : Arena) (vis : List Nat),
    L.length < fuel + vis.length → vis.Nodup → (∀ v ∈ vis, v ∈ L) → p ∈ L → p ∉ vis → (∀ v ∈ vis, Reach A0 p v) →
    Less A0 A → Safe reg A0 p →
    preview reg order fuel p A ≠ .deep := by
  intro fuel
  induction fuel with
  | zero =>
    intro p A vis hlen hnd hv hp hpv _ _ _
    exfalso
    have h1 : (p :: vis).length ≤ L.length := by
      have : (p :: vis).Nodup := List.nodup_cons.mpr ⟨hpv, hnd⟩
      have hsub : (p :: vis) ⊆ L := by intro x hx; rcases List.mem_cons.mp hx with rfl | hx; exacts [hp, hv x hx]
      exact (this.subperm hsub).length_le
    simp at h1; omega
  | succ f ih =>
    intro p A vis hlen hvn hv hp hpv hr h0 hs
    rw [preview]
    obtain ⟨B, hB⟩ := fixOne_ok ((hs.less h0) p .refl)
    have hAB := h0.trans (fixOne_less hB)
    rw [hB]
    simp only [Out.bind]
    have hl : ∀ q ∈ order, ∀ C, Less A0 C → ∀ C', (match C[q]? with
        | none => Out.ub
        | some nd => forEach (fun l A => if l = some p then preview reg order f q A else .ok A) (links nd) C) = .ok C' → Less A0 C' := by
      intro q _ C hC C' hC'
      split at hC'
      · cases hC'
      · refine hC.trans (forEach_less ?_ C C' hC')
        intro l _ D D' hD
        split_ifs at hD
        · exact preview_less _ _ _ _ hD
        · cases hD; exact Less.refl _
    refine forEach_safe (P := fun C => Less A0 C) .deep (by intro A h; cases h) ?_ B hAB
    intro q hq C hC
    refine ⟨?_, hl q hq C hC⟩
    split
    · intro h; cases h
    · rename_i nd hnd
      by_cases hm : some p ∈ links nd
      · have hlink : LinkND A0 q p := hC.link ⟨nd, hnd, mem_links.mp hm⟩
        have hqv : q ∉ p :: vis := by
          intro hq'
          rcases List.mem_cons.mp hq' with rfl | hq'
          · exact hac q hp (.single hlink)
          · exact hac p hp (TransGen.tail' (hr q hq') hlink)
        refine forEach_safe (P := fun D => Less A0 D) .deep (by intro A h; cases h) ?_ C hC
        intro l _ D hD
        split_ifs
        · refine ⟨ih q D (p :: vis) (by simp; omega) (List.nodup_cons.mpr ⟨hpv, hvn⟩) ?_ (hL q hq) hqv ?_ hD ?_, fun E hE => hD.trans (preview_less _ _ _ _ hE)⟩
          · intro x hx; rcases List.mem_cons.mp hx with rfl | hx; exacts [hp, hv x hx]
          · intro x hx
            rcases List.mem_cons.mp hx with rfl | hx
            · exact .single hlink
            · exact (ReflTransGen.single hlink).trans (hr x hx)
          · intro d hd; exact hs d (hd.tail hlink)
        · exact ⟨(by intro h; cases h), fun E hE => by cases hE; exact hD⟩
      · refine forEach_safe (P := fun _ => True) .deep (by intro A h; cases h) ?_ C trivial
        intro l hl D _
        have : l ≠ some p := by rintro rfl; exact hm hl
        rw [if_neg this]
        exact ⟨(by intro h; cases h), fun _ _ => trivial⟩

end FastNoise.Editor
