import Verif.RoundTripProps
/-! # The text depends only on the shape of the graph

Serialising two graphs that differ only in where their nodes live gives the same text. -/
namespace FastNoise.Ser
open FastNoise.Stream FastNoise.Deser FastNoise.Spec FastNoise.RT
open Relation

/-- The two hybrid constants are written in the same way: both equal to the default (nothing is written), or the same bits. -/
def SameHyb (d v v' : UInt32) : Prop := (feq v d = true ∧ feq v' d = true) ∨ v = v'

/-- `n'` is `n` with its links renamed by `φ`, as far as its type `m` lets the serialiser see. -/
structure Renamed (φ : Nat → Nat) (m : Meta) (n n' : NodeData) : Prop where
  vars : n'.vars = n.vars
  lookups : n'.lookups = n.lookups.map (Option.map φ)
  hlen : n'.hybrids.length = n.hybrids.length
  hyb : ∀ (i : Nat) h h', n.hybrids[i]? = some h → n'.hybrids[i]? = some h' →
    h'.1 = h.1.map φ ∧ (h.1 = none → ∀ d, m.hybrids[i]? = some d → SameHyb d h.2 h'.2)

/-- `B` holds a renamed copy of every node of `A` in `R`. -/
structure Iso (reg : Reg) (φ : Nat → Nat) (R : Nat → Prop) (A B : Arena) : Prop where
  inj : ∀ p q, R p → R q → φ p = φ q → p = q
  closed : ∀ p c, R p → LinkND A p c → R c
  node : ∀ p n, R p → A[p]? = some n → ∃ n', B[φ p]? = some n' ∧ n'.md = n.md ∧
    (∀ id m, n.md = some id → reg[id]? = some m → Renamed φ m n n') ∧
    (n.vars.length, n.lookups.length, n.hybrids.length) = (n'.vars.length, n'.lookups.length, n'.hybrids.length)

/-- Corresponding states of the two runs. -/
structure RelS (φ : Nat → Nat) (R : Nat → Prop) (A B : Arena) (s t : St) : Prop where
  fst : s.arena = A
  snd : t.arena = B
  ws : t.ws = s.ws
  refs : t.refs = s.refs.map fun x => (φ x.1, x.2)
  keys : ∀ x ∈ s.refs, R x.1

theorem lookup_map {φ : Nat → Nat} {R : Nat → Prop} (inj : ∀ p q, R p → R q → φ p = φ q → p = q) {p : Nat} (hp : R p) :
    ∀ (refs : List (Nat × Nat)), (∀ x ∈ refs, R x.1) → (refs.map fun x => (φ x.1, x.2)).lookup (φ p) = refs.lookup p := by
  intro refs
  induction refs with
  | nil => intro _; rfl
  | cons x xs ih =>
    intro h
    obtain ⟨a, b⟩ := x
    simp only [List.map_cons]
    rw [lookup_cons, lookup_cons, ih fun y hy => h y (by simp [hy])]
    by_cases e : p = a
    · rw [if_pos e, if_pos (by rw [e])]
    · rw [if_neg e, if_neg (fun e' => e (inj _ _ hp (h (a, b) (by simp)) e'))]

/-- What corresponding calls do. -/
def Sim (φ : Nat → Nat) (R : Nat → Prop) (A B : Arena) (x y : SR) : Prop :=
  ∀ b s, x = .done b s → ∃ t, y = .done b t ∧ RelS φ R A B s t

variable {reg : Reg} {φ : Nat → Nat} {R : Nat → Prop} {A B : Arena}

theorem lookups_sim {rec rec' : Nat → List Nat → St → SR} {p : Nat} {n n' : NodeData} {deps deps' : List Nat}
    (hA : A[p]? = some n) (hB : B[φ p]? = some n') (hl : n'.lookups = n.lookups.map (Option.map φ))
    (hrec : ∀ c, LinkND A p c → ∀ s t, RelS φ R A B s t → Sim φ R A B (rec c deps s) (rec' (φ c) deps' t)) :
    ∀ (ks : List Kind) (i : Nat) (s t : St), RelS φ R A B s t →
      Sim φ R A B (serLookups reg false rec p deps i ks s) (serLookups reg false rec' (φ p) deps' i ks t) := by
  intro ks
  induction ks with
  | nil =>
    intro i s t h b s' e
    simp only [serLookups] at e ⊢
    cases e
    exact ⟨t, rfl, h⟩
  | cons k ks ih =>
    intro i s t h b s' e
    rw [serLookups] at e
    rw [serLookups]
    rw [h.fst, hA] at e
    rw [h.snd, hB]
    simp only [hl, List.getElem?_map] at e ⊢
    cases hx : n.lookups[i]? with
    | none => rw [hx] at e; cases e
    | some x =>
      rw [hx] at e
      simp only [Option.map_some]
      cases x with
      | none => simp only at e; cases e; exact ⟨t, rfl, h⟩
      | some c =>
        simp only [Bool.false_eq_true, if_false, Option.map_some] at e ⊢
        have hlink : LinkND A p c := linkND_lookup hA (List.mem_of_getElem? hx)
        cases hr : rec c deps s with
        | ub => rw [hr] at e; cases e
        | nofuel => rw [hr] at e; cases e
        | done b1 s1 =>
          obtain ⟨t1, e1, h1⟩ := hrec c hlink s t h b1 s1 hr
          rw [hr] at e
          rw [e1]
          cases b1 with
          | true => exact ih (i + 1) s1 t1 h1 b s' e
          | false => simp only at e; cases e; exact ⟨t1, rfl, h1⟩

theorem hybrids_sim {rec rec' : Nat → List Nat → St → SR} {p : Nat} {n n' : NodeData} {deps deps' : List Nat}
    (hA : A[p]? = some n) (hB : B[φ p]? = some n') (ds0 : List UInt32) (hlen : n'.hybrids.length = n.hybrids.length)
    (hh : ∀ (i : Nat) h h', n.hybrids[i]? = some h → n'.hybrids[i]? = some h' →
      h'.1 = h.1.map φ ∧ (h.1 = none → ∀ d, ds0[i]? = some d → SameHyb d h.2 h'.2))
    (hrec : ∀ c, LinkND A p c → ∀ s t, RelS φ R A B s t → Sim φ R A B (rec c deps s) (rec' (φ c) deps' t)) :
    ∀ (ds : List UInt32) (i : Nat) (s t : St), (∀ (j : Nat) d, ds[j]? = some d → ds0[i + j]? = some d) → RelS φ R A B s t →
      Sim φ R A B (serHybrids reg false rec p deps i ds s) (serHybrids reg false rec' (φ p) deps' i ds t) := by
  intro ds
  induction ds with
  | nil =>
    intro i s t _ h b s' e
    simp only [serHybrids] at e ⊢
    cases e
    exact ⟨t, rfl, h⟩
  | cons d ds ih =>
    intro i s t hd h b s' e
    have hd' : ∀ (j : Nat) d, ds[j]? = some d → ds0[i + 1 + j]? = some d := fun j x hx => by
      have := hd (j + 1) x (by simpa using hx)
      rwa [show i + (j + 1) = i + 1 + j by omega] at this
    rw [serHybrids] at e
    rw [serHybrids]
    rw [h.fst, hA] at e
    rw [h.snd, hB]
    simp only at e ⊢
    cases hx : n.hybrids[i]? with
    | none => rw [hx] at e; cases e
    | some x =>
      obtain ⟨x', hx'⟩ : ∃ x', n'.hybrids[i]? = some x' := ⟨_, List.getElem?_eq_getElem (by rw [hlen]; exact (List.getElem?_eq_some_iff.mp hx).1)⟩
      obtain ⟨g1, g2⟩ := hh i x x' hx hx'
      rw [hx] at e
      rw [hx']
      obtain ⟨l, v⟩ := x
      obtain ⟨l', v'⟩ := x'
      simp only at g1 g2
      subst g1
      cases l with
      | none =>
        simp only [Option.map_none] at e ⊢
        refine ih (i + 1) { arena := A, ws := if feq v d = true then s.ws else (s.ws.addLookup tHybridVariable i).add (le32 v), refs := s.refs }
          { arena := B, ws := if feq v' d = true then t.ws else (t.ws.addLookup tHybridVariable i).add (le32 v'), refs := t.refs } hd' ⟨rfl, rfl, ?_, h.refs, h.keys⟩ b s' e
        simp only [h.ws]
        rcases g2 rfl d (by simpa using hd 0 d rfl) with ⟨a1, a2⟩ | rfl
        · simp [a1, a2]
        · rfl
      | some c =>
        simp only [Bool.false_eq_true, if_false, Option.map_some] at e ⊢
        have hlink : LinkND A p c := linkND_hybrid hA (List.mem_of_getElem? hx)
        cases hr : rec c deps { arena := A, ws := s.ws.addLookup tHybridLookup i, refs := s.refs } with
        | ub => rw [hr] at e; cases e
        | nofuel => rw [hr] at e; cases e
        | done b1 s1 =>
          obtain ⟨t1, e1, h1⟩ := hrec c hlink { arena := A, ws := s.ws.addLookup tHybridLookup i, refs := s.refs } { arena := B, ws := t.ws.addLookup tHybridLookup i, refs := t.refs }
            ⟨rfl, rfl, by simp only [h.ws], h.refs, h.keys⟩ b1 s1 hr
          rw [hr] at e
          rw [e1]
          cases b1 with
          | true => exact ih (i + 1) s1 t1 hd' h1 b s' e
          | false => simp only at e; cases e; exact ⟨t1, rfl, h1⟩

theorem emplace_map (inj : ∀ p q, R p → R q → φ p = φ q → p = q) {p : Nat} (hp : R p) {refs : List (Nat × Nat)} (hk : ∀ x ∈ refs, R x.1) :
    emplace (refs.map fun x => (φ x.1, x.2)) (φ p) = (emplace refs p).map fun x => (φ x.1, x.2) := by
  unfold emplace
  rw [lookup_map inj hp refs hk]
  cases refs.lookup p <;> simp

/-- Serialising corresponding nodes, with at least as much fuel. -/
theorem ser_sim (hI : Iso reg φ R A B) : ∀ (f f' p : Nat) (deps deps' : List Nat) (s t : St), f ≤ f' → R p → RelS φ R A B s t →
    Sim φ R A B (ser reg false f p deps s) (ser reg false f' (φ p) deps' t) := by
  intro f
  induction f with
  | zero => intro f' p deps deps' s t _ _ _ b s' e; simp [ser] at e
  | succ f ih =>
    intro f' p deps deps' s t hf hp h b s' e
    obtain ⟨f', rfl⟩ : ∃ k, f' = k + 1 := ⟨f' - 1, by omega⟩
    rw [ser] at e
    rw [ser]
    obtain ⟨ar, ws0, refs0⟩ := s
    obtain ⟨ar', ws0', refs0'⟩ := t
    have hfst : ar = A := h.fst
    have hsnd : ar' = B := h.snd
    subst hfst hsnd
    simp only at e ⊢
    cases hA : ar[p]? with
    | none => rw [hA] at e; cases e
    | some n =>
      obtain ⟨n', hB, hmd, hren, hlen⟩ := hI.node p n hp hA
      rw [hA] at e
      rw [hB]
      simp only at e ⊢
      rw [hmd]
      cases hid : n.md with
      | none => rw [hid] at e; simp only at e; cases e; exact ⟨_, rfl, h⟩
      | some id =>
        rw [hid] at e
        simp only at e ⊢
        cases hm : reg[id]? with
        | none => rw [hm] at e; cases e
        | some m =>
          rw [hm] at e
          simp only [Prod.mk.injEq, Bool.false_eq_true, if_false] at e hlen ⊢
          have hr := hren id m hid hm
          rw [← hlen.1, ← hlen.2.1, ← hlen.2.2]
          by_cases hsz : n.vars.length ≠ m.vars.length ∨ n.lookups.length ≠ m.lookups.length ∨ n.hybrids.length ≠ m.hybrids.length
          · rw [if_pos hsz] at e ⊢
            cases e; exact ⟨_, rfl, h⟩
          · rw [if_neg hsz] at e ⊢
            have hrf : refs0' = refs0.map fun x => (φ x.1, x.2) := h.refs
            have hws0 : ws0' = ws0 := h.ws
            subst hrf hws0
            rw [lookup_map hI.inj hp _ h.keys]
            cases hl : refs0.lookup p with
            | some r =>
              rw [hl] at e
              simp only at e ⊢
              cases e
              exact ⟨_, rfl, ⟨h.fst, h.snd, by simp only, rfl, h.keys⟩⟩
            | none =>
              rw [hl] at e
              simp only at e ⊢
              have hrec : ∀ c, LinkND ar p c → ∀ s t, RelS φ R ar ar' s t → Sim φ R ar ar' (ser reg false f c deps s) (ser reg false f' (φ c) deps' t) :=
                fun c hc s t hst => ih f' c deps deps' s t (by omega) (hI.closed p c hp hc) hst
              rw [hr.vars]
              generalize hws : (if m.lookups.length ≠ 0 then (serVars (ws0'.add [UInt8.ofNat id]) 0 n.vars m.vars).addLookup tLookup m.lookups.length else
                serVars (ws0'.add [UInt8.ofNat id]) 0 n.vars m.vars) = ws at e ⊢
              have h0 : RelS φ R ar ar' { arena := ar, ws := ws, refs := refs0 } { arena := ar', ws := ws, refs := refs0.map fun x => (φ x.1, x.2) } := ⟨rfl, rfl, rfl, rfl, h.keys⟩
              have hL := lookups_sim (reg := reg) hA hB hr.lookups hrec m.lookups 0 _ _ h0
              cases hx : serLookups reg false (ser reg false f) p deps 0 m.lookups { arena := ar, ws := ws, refs := refs0 } with
              | ub => rw [hx] at e; cases e
              | nofuel => rw [hx] at e; cases e
              | done b1 s1 =>
                obtain ⟨t1, e1, h1⟩ := hL b1 s1 hx
                rw [hx] at e
                rw [e1]
                cases b1 with
                | false => simp only at e; cases e; exact ⟨t1, rfl, h1⟩
                | true =>
                  simp only at e ⊢
                  have hH := hybrids_sim (reg := reg) hA hB m.hybrids hr.hlen hr.hyb hrec m.hybrids 0 s1 t1 (fun j d hd => by simpa using hd) h1
                  cases hy : serHybrids reg false (ser reg false f) p deps 0 m.hybrids s1 with
                  | ub => rw [hy] at e; cases e
                  | nofuel => rw [hy] at e; cases e
                  | done b2 s2 =>
                    obtain ⟨t2, e2, h2⟩ := hH b2 s2 hy
                    rw [hy] at e
                    rw [e2]
                    cases b2 with
                    | false => simp only at e; cases e; exact ⟨t2, rfl, h2⟩
                    | true =>
                      simp only at e ⊢
                      cases e
                      refine ⟨_, rfl, ⟨h2.fst, h2.snd, by simp only [h2.ws], by simp only [h2.refs]; exact emplace_map hI.inj hp h2.keys, ?_⟩⟩
                      intro x hx
                      simp only [emplace] at hx
                      split at hx
                      · exact h2.keys x hx
                      · rcases List.mem_cons.mp hx with rfl | hx
                        · exact hp
                        · exact h2.keys x hx

/-- The end of `serStream`. -/
def flushed : SR → SR
  | .done true st => .done true { st with ws := st.ws.flush }
  | r => r

theorem serStream_eq (fixUp : Bool) (f : Nat) (A : Arena) (p : Nat) :
    serStream reg fixUp f A p = flushed (ser reg fixUp f p [] { arena := A, ws := { stream := [], stack := 0 }, refs := [] }) := by
  unfold serStream flushed; rfl

theorem finish_sim {enc : List UInt8 → Option (List UInt8)} {x y : SR} {text : List UInt8} {A' : Arena}
    (h : finishWith enc (flushed x) = .text text A') (hS : Sim φ R A B x y) : finishWith enc (flushed y) = .text text B := by
  cases x with
  | ub => simp only [finishWith, flushed] at h; cases h
  | nofuel => simp only [finishWith, flushed] at h; cases h
  | done b s =>
    obtain ⟨t, rfl, ht⟩ := hS b s rfl
    cases b with
    | false =>
      simp only [finishWith, flushed] at h ⊢
      rw [ht.snd, (SerOut.text.inj h).1]
    | true =>
      simp only [finishWith, flushed] at h ⊢
      rw [ht.ws]
      cases he : enc s.ws.flush.stream with
      | none => rw [he] at h; cases h
      | some x =>
        rw [he] at h
        rw [ht.snd]
        exact congrArg (SerOut.text · B) (SerOut.text.inj h).1

/-- The same text, with the second run given more fuel than it takes. -/
theorem serialise_iso_fuel (hI : Iso reg φ R A B) {p : Nat} (hp : R p) {f : Nat} (hle : A.length + 1 ≤ f) {text : List UInt8} {A' : Arena}
    (h : serialise reg false A p = .text text A') : finishWith Base64.encode (serStream reg false f B (φ p)) = .text text B := by
  unfold serialise at h
  rw [serStream_eq] at h ⊢
  exact finish_sim h (ser_sim hI (A.length + 1) f p [] [] { arena := A, ws := { stream := [], stack := 0 }, refs := [] }
    { arena := B, ws := { stream := [], stack := 0 }, refs := [] } hle hp ⟨rfl, rfl, rfl, rfl, by simp⟩)

theorem iso_refl (A : Arena) : Iso reg id (fun _ => True) A A where
  inj _ _ _ _ h := h
  closed _ _ _ _ := trivial
  node p n _ h := ⟨n, h, rfl, fun id m _ _ => ⟨rfl, by simp, rfl, fun i h h' h1 h2 => by rw [h1] at h2; cases h2; exact ⟨by simp, fun _ _ _ => Or.inr rfl⟩⟩, rfl⟩

/-- The same text. -/
theorem serialise_iso (hI : Iso reg φ R A B) {p : Nat} (hp : R p) {text text' : List UInt8} {A' B' : Arena}
    (h : serialise reg false A p = .text text A') (h' : serialise reg false B (φ p) = .text text' B') : serialise reg false B (φ p) = .text text B := by
  have h1 := serialise_iso_fuel hI hp (f := A.length + 1 + (B.length + 1)) (by omega) h
  have h2 := serialise_iso_fuel (iso_refl (reg := reg) B) (p := φ p) trivial (f := A.length + 1 + (B.length + 1)) (by omega) h'
  have h3 := serialise_iso_fuel (iso_refl (reg := reg) B) (p := φ p) trivial (f := B.length + 1) le_rfl h'
  simp only [id] at h2 h3
  rw [h1] at h2
  have e : serialise reg false B (φ p) = .text text' B := h3
  rw [e, (SerOut.text.inj h2).1]

end FastNoise.Ser
