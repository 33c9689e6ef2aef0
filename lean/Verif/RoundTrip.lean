import Verif.DeserInst
import Mathlib.Logic.Relation

/-! Helper lemmas: decoding what the serialiser wrote (no fixUp). -/
namespace FastNoise.RT
open FastNoise.Stream FastNoise.Ser FastNoise.Deser FastNoise.Spec FastNoise.Registry

/-! ### Tokens -/

/-- Number of raw bytes in a token list. -/
def nraw (ts : List Tok) : Nat := (ts.filter fun t => match t with | .raw _ => true | .nodeEnd => false).length

@[simp] theorem nraw_nil : nraw [] = 0 := rfl
@[simp] theorem nraw_raw (b ts) : nraw (.raw b :: ts) = nraw ts + 1 := by simp [nraw]
@[simp] theorem nraw_end (ts) : nraw (.nodeEnd :: ts) = nraw ts := by simp [nraw]
@[simp] theorem nraw_append (a b) : nraw (a ++ b) = nraw a + nraw b := by simp [nraw]
@[simp] theorem nraw_replicate (n) : nraw (List.replicate n .nodeEnd) = 0 := by
  induction n with
  | zero => rfl
  | succ n ih => simp [List.replicate_succ, ih]
@[simp] theorem nraw_raws (bs) : nraw (raws bs) = bs.length := by
  induction bs with
  | nil => rfl
  | cons b bs ih =>
    have : raws (b :: bs) = .raw b :: raws bs := rfl
    rw [this, nraw_raw, ih]; rfl

theorem nraw_phys (ts : List Tok) : ∀ k, nraw ts ≤ (phys k ts).length := by
  induction ts with
  | nil => intro k; simp
  | cons t ts ih =>
    intro k
    cases t with
    | raw b => have := ih 0; simp only [phys, nraw_raw, List.length_append, List.length_cons]; omega
    | nodeEnd =>
      simp only [phys, nraw_end]
      split
      · exact ih _
      · have := ih 0; simp; omega

theorem nraw_rep {d : RS} {ts : List Tok} (h : Rep d ts) : nraw ts ≤ d.stream.length - d.pos := by
  obtain ⟨t, h1, h2⟩ := h
  have := nraw_phys t 0
  rw [← h2] at this
  simp at this
  rw [h1]; simpa using this

/-- Tokens of the changed variables. -/
def varToks : Nat → List UInt32 → List UInt32 → List Tok
  | i, v :: vs, d :: ds =>
    (if v ≠ d then .raw (lookupByte tVariable i) :: raws (le32 v) else []) ++ varToks (i + 1) vs ds
  | _, _, _ => []

theorem toks_raw (ws : WS) (b : UInt8) : ws.add [b] = ws.toks [.raw b] := rfl
theorem toks_raws (ws : WS) (b : UInt8) (bs : List UInt8) : ws.add (b :: bs) = ws.toks (raws (b :: bs)) :=
  WS.add_eq_toks ws b bs
theorem toks_le32 (ws : WS) (v : UInt32) : ws.add (le32 v) = ws.toks (raws (le32 v)) := toks_raws _ _ _
theorem toks_le16 (ws : WS) (v : Nat) : ws.add (le16 v) = ws.toks (raws (le16 v)) := toks_raws _ _ _
theorem toks_end (ws : WS) : ws.nodeEnd = ws.toks [.nodeEnd] := rfl

theorem serVars_toks (vs : List UInt32) : ∀ (i : Nat) (ds : List UInt32) (ws : WS),
    serVars ws i vs ds = ws.toks (varToks i vs ds) := by
  induction vs with
  | nil => intro i ds ws; simp [serVars, varToks]
  | cons v vs ih =>
    intro i ds ws
    cases ds with
    | nil => simp [serVars, varToks]
    | cons d ds =>
      simp only [serVars, varToks, ih, WS.toks_append]
      by_cases hv : v ≠ d
      · simp only [hv, if_true, ne_eq, not_false_eq_true]
        rw [WS.addLookup, toks_raw, toks_le32, ← WS.toks_append]; rfl
      · simp [hv]

/-! ### Monad -/

theorem bind_ok {N α β : Type} {x : M N α} {f : α → M N β} {s s' : DSt N} {a : α} (h : x s = .ok a s') :
    (x >>= f) s = f a s' := by
  show M.bind x f s = _
  simp [M.bind, h]

theorem getN_rep {N : Type} {s : DSt N} {bs : List UInt8} {ts : List Tok} (hb : bs ≠ [])
    (h : Rep s.rs (raws bs ++ ts)) :
    ∃ s', getN (N := N) bs.length s = .ok bs s' ∧ Rep s'.rs ts ∧ s'.out = s.out ∧
      s'.rs.stream = s.rs.stream := by
  obtain ⟨d', h1, h2, h3⟩ := get_rep hb h
  exact ⟨{ s with rs := d' }, by simp [getN, liftRd, h1], h2, rfl, h3⟩

theorem getLk_rep {N : Type} {s : DSt N} {t i : Nat} {ts : List Tok} (ht : t < 8) (ht4 : t ≠ 4) (hi : i < 32)
    (h : Rep s.rs (.raw (lookupByte t i) :: ts)) (old : Nat) :
    ∃ s', getLk (N := N) old s = .ok { type := t, index := i } s' ∧ Rep s'.rs ts ∧ s'.out = s.out ∧
      s'.rs.stream = s.rs.stream := by
  obtain ⟨d', h1, h2, h3⟩ := getLookup_rep_raw h (by rw [lookupByte_type]; omega) old
  rw [ofByte_lookupByte ht hi] at h1
  exact ⟨{ s with rs := d' }, by simp [getLk, liftRd, h1], h2, rfl, h3⟩

theorem getLk_rep_end {N : Type} {s : DSt N} {ts : List Tok} (h : Rep s.rs (.nodeEnd :: ts)) (old : Nat) :
    ∃ s' i, getLk (N := N) old s = .ok { type := tNodeEnd, index := i } s' ∧ Rep s'.rs ts ∧ s'.out = s.out ∧
      s'.rs.stream = s.rs.stream := by
  obtain ⟨d', i, h1, h2, h3⟩ := getLookup_rep_end h old
  exact ⟨{ s with rs := d' }, i, by simp [getLk, liftRd, h1], h2, rfl, h3⟩

/-! ### Abstract node content -/

/-- How the statements of a decoder act on abstract node content (class, variables, sources, hybrids).
`dv`/`dh` are the initial variables and hybrid constants of a class; `acc id i cid` says slot `i` of class
`id` accepts a child of class `cid`. -/
structure OpsMk {N : Type} (reg : Reg) (o : Ops N)
    (mk : Nat → List UInt32 → List (Option Nat) → List (Option Nat × UInt32) → N) (idOf : N → Nat)
    (dv dh : Nat → List UInt32) (acc : Nat → Nat → Nat → Prop) : Prop where
  idOf_mk : ∀ id V L H, idOf (mk id V L H) = id
  dvlen : ∀ (id : Nat) m, reg[id]? = some m → (dv id).length = m.vars.length ∧ (dh id).length = m.hybrids.length
  create : ∀ (id : Nat) m, reg[id]? = some m →
    o.create id = some (mk id (dv id) (m.lookups.map fun _ => none) ((dh id).map fun d => (none, d)))
  setVar : ∀ id V L H i v, i < V.length → o.setVar (mk id V L H) i v = .ok (mk id (V.set i v) L H)
  setLookup : ∀ (id : Nat) m (out : List N) V L H (i : Nat) c cid, reg[id]? = some m → i < m.lookups.length →
    i < L.length → (out[c]?).map idOf = some cid → acc id i cid →
    o.setLookup out (mk id V L H) i (some c) = .ok (mk id V (L.set i (some c)) H)
  setHybNode : ∀ id V L (H : List (Option Nat × UInt32)) i c d, H[i]? = some (none, d) →
    o.setHybNode (mk id V L H) i (some c) = .ok (mk id V L (H.set i (some c, d)))
  setHybVal : ∀ id V L (H : List (Option Nat × UInt32)) i v d, H[i]? = some (none, d) →
    o.setHybVal (mk id V L H) i v = .ok (mk id V L (H.set i (none, v)))

/-- Decoded variables: `cs` initial values, `ds` metadata defaults, `vs` serialised values. -/
def expVars : List UInt32 → List UInt32 → List UInt32 → List UInt32
  | c :: cs, d :: ds, v :: vs => (if v ≠ d then v else c) :: expVars cs ds vs
  | _, _, _ => []

/-- Decoded hybrids. -/
def expHyb (g : Nat → Option Nat) : List UInt32 → List UInt32 → List (Option Nat × UInt32) →
    List (Option Nat × UInt32)
  | c :: cs, _ :: ds, (some p, _) :: hs => (g p, c) :: expHyb g cs ds hs
  | c :: cs, d :: ds, (none, v) :: hs => (none, if feq v d then c else v) :: expHyb g cs ds hs
  | _, _, _ => []

theorem expVars_len : ∀ (cs ds vs : List UInt32), cs.length = ds.length → vs.length = ds.length →
    (expVars cs ds vs).length = ds.length := by
  intro cs
  induction cs with
  | nil => intro ds vs h1 h2; simp at h1; simp [expVars, ← h1]
  | cons c cs ih =>
    intro ds vs h1 h2
    match ds, vs, h1, h2 with
    | d :: ds, v :: vs, h1, h2 => simp at h1 h2; simp [expVars, ih ds vs h1 h2]

variable {N : Type} {reg : Reg} {o : Ops N}
  {mk : Nat → List UInt32 → List (Option Nat) → List (Option Nat × UInt32) → N} {idOf : N → Nat}
  {dv dh : Nat → List UInt32} {acc : Nat → Nat → Nat → Prop}

/-- The variables loop, started by reading a lookup, consumes the variable tokens. -/
theorem varLoop_dec (hO : OpsMk reg o mk idOf dv dh acc) {id : Nat} {L : List (Option Nat)}
    {H : List (Option Nat × UInt32)} {nV : Nat} :
    ∀ (vs ds cs pre : List UInt32) (rest : List Tok) (s : DSt N) (old fuel : Nat),
      cs.length = ds.length → vs.length = ds.length → pre.length + ds.length = nV → nV ≤ 32 →
      Rep s.rs (varToks pre.length vs ds ++ rest) → nraw (varToks pre.length vs ds) < fuel →
      ∃ s' old' fuel', 0 < fuel' ∧ Rep s'.rs rest ∧ s'.out = s.out ∧ s'.rs.stream = s.rs.stream ∧
        (getLk old >>= fun l => varLoop o nV fuel l (mk id (pre ++ cs) L H)) s =
        (getLk old' >>= fun l => varLoop o nV fuel' l (mk id (pre ++ expVars cs ds vs) L H)) s' := by
  intro vs
  induction vs with
  | nil =>
    intro ds cs pre rest s old fuel h1 h2 h3 h4 hR hf
    simp at h2
    have hds : ds = [] := List.length_eq_zero_iff.mp h2.symm
    subst hds
    have hcs : cs = [] := List.length_eq_zero_iff.mp h1
    subst hcs
    exact ⟨s, old, fuel, by simpa [varToks] using hf, by simpa [varToks] using hR, rfl, rfl, rfl⟩
  | cons v vs ih =>
    intro ds cs pre rest s old fuel h1 h2 h3 h4 hR hf
    match ds, cs, h1, h2 with
    | d :: ds, c :: cs, h1, h2 =>
      simp at h1 h2 h3
      by_cases hv : v ≠ d
      · simp only [varToks, hv, ne_eq, not_false_eq_true, if_true, List.append_assoc, List.cons_append] at hR hf
        obtain ⟨s1, e1, r1, o1, t1⟩ := getLk_rep (N := N) (t := tVariable) (by decide) (by decide)
          (i := pre.length) (by omega) hR old
        obtain ⟨s2, e2, r2, o2, t2⟩ := getN_rep (bs := le32 v) (by simp [le32]) r1
        rw [le32_len] at e2
        have hlen : (pre ++ [v]).length = pre.length + 1 := by simp
        simp at hf
        obtain ⟨s3, old', fuel', f1, f2, f3, f4, f5⟩ := ih ds cs (pre ++ [v]) rest s2 pre.length (fuel - 1) h1 h2
          (by simp; omega) h4 (by rw [hlen]; exact r2) (by rw [hlen]; omega)
        refine ⟨s3, old', fuel', f1, f2, by rw [f3, o2, o1], by rw [f4, t2, t1], ?_⟩
        rw [bind_ok e1]
        obtain ⟨f, rfl⟩ : ∃ f, fuel = f + 1 := ⟨fuel - 1, by omega⟩
        show varLoop o nV (f + 1) _ _ s1 = _
        rw [varLoop]
        simp only [if_true]
        rw [bind_ok e2]
        have hset : o.setVar (mk id (pre ++ c :: cs) L H) pre.length (unle32 (le32 v)) =
            .ok (mk id (pre ++ [v] ++ cs) L H) := by
          rw [hO.setVar _ _ _ _ _ _ (by simp), unle32_le32]
          simp
        have hact : actIf (N := N) (pre.length < nV)
            (o.setVar (mk id (pre ++ c :: cs) L H) pre.length (unle32 (le32 v)))
            (mk id (pre ++ c :: cs) L H) s2 = .ok (mk id (pre ++ [v] ++ cs) L H) s2 := by
          unfold actIf
          rw [if_pos (by omega), hset]
          rfl
        rw [bind_ok hact]
        simp only [Nat.add_sub_cancel] at f5
        rw [f5]
        simp [expVars, hv]
      · simp only [varToks, hv, if_false, List.nil_append] at hR hf
        have hlen : (pre ++ [c]).length = pre.length + 1 := by simp
        obtain ⟨s3, old', fuel', f1, f2, f3, f4, f5⟩ := ih ds cs (pre ++ [c]) rest s old fuel h1 h2
          (by simp; omega) h4 (by rw [hlen]; exact hR) (by rw [hlen]; exact hf)
        refine ⟨s3, old', fuel', f1, f2, f3, f4, ?_⟩
        have : pre ++ c :: cs = pre ++ [c] ++ cs := by simp
        rw [this, f5]
        simp [expVars, hv]

/-! ### Reference ids -/

/-- Reference ids are handed out in order, truncated to 16 bits. -/
inductive Numbered : List (Nat × Nat) → Prop
  | nil : Numbered []
  | cons {p refs} : Numbered refs → refs.lookup p = none → Numbered ((p, refs.length % 65536) :: refs)

theorem lookup_cons (p q k : Nat) (refs : List (Nat × Nat)) :
    ((q, k) :: refs).lookup p = if p = q then some k else refs.lookup p := by
  by_cases h : p = q
  · simp [List.lookup, h]
  · have : (p == q) = false := by simp [h]
    simp [List.lookup, this, h]

theorem Numbered.lt {refs : List (Nat × Nat)} (h : Numbered refs) (hl : refs.length ≤ 65536) {p k : Nat}
    (hk : refs.lookup p = some k) : k < refs.length := by
  induction h with
  | nil => simp [List.lookup] at hk
  | cons h1 h2 ih =>
    rename_i q refs
    simp only [List.length_cons] at hl ⊢
    rw [lookup_cons] at hk
    split at hk
    · simp at hk; omega
    · have := ih (by omega) hk; omega

theorem Numbered.inj {refs : List (Nat × Nat)} (h : Numbered refs) (hl : refs.length ≤ 65536) {p q k : Nat}
    (hp : refs.lookup p = some k) (hq : refs.lookup q = some k) : p = q := by
  induction h with
  | nil => simp [List.lookup] at hp
  | cons h1 h2 ih =>
    rename_i x refs
    simp only [List.length_cons] at hl
    rw [lookup_cons] at hp hq
    have hm : refs.length % 65536 = refs.length := Nat.mod_eq_of_lt (by omega)
    split at hp <;> split at hq
    · rename_i a b; rw [a, b]
    · have := h1.lt (by omega) hq; simp at hp; omega
    · have := h1.lt (by omega) hp; simp at hq; omega
    · exact ih (by omega) hp hq

theorem Numbered.tail {new refs : List (Nat × Nat)} (h : Numbered (new ++ refs)) : Numbered refs := by
  induction new with
  | nil => exact h
  | cons x new ih => cases h with | cons h1 h2 => exact ih h1

theorem Numbered.mono {new refs : List (Nat × Nat)} (h : Numbered (new ++ refs)) {p k : Nat}
    (hk : refs.lookup p = some k) : (new ++ refs).lookup p = some k := by
  induction new with
  | nil => exact hk
  | cons x new ih =>
    cases h with
    | cons h1 h2 =>
      rename_i q
      have := ih h1
      simp only [List.cons_append]
      rw [lookup_cons, if_neg]
      · exact this
      · rintro rfl
        have h2' : (new ++ refs).lookup p = none := h2
        rw [h2'] at this; simp at this

theorem lookup_append_none {new refs : List (Nat × Nat)} {p : Nat} (h1 : ∀ q ∈ new, q.1 ≠ p)
    (h2 : refs.lookup p = none) : (new ++ refs).lookup p = none := by
  induction new with
  | nil => exact h2
  | cons x new ih =>
    obtain ⟨a, b⟩ := x
    simp only [List.cons_append]
    rw [lookup_cons, if_neg]
    · exact ih (fun q hq => h1 q (List.mem_cons_of_mem _ hq))
    · intro e; exact h1 (a, b) (List.mem_cons_self ..) e.symm

/-! ### Correspondence of serialised and decoded nodes -/

/-- The decoded form of a node; `g` maps serialised nodes to decoded positions. -/
def expNode (reg : Reg) (mk : Nat → List UInt32 → List (Option Nat) → List (Option Nat × UInt32) → N)
    (dv dh : Nat → List UInt32) (g : Nat → Option Nat) (nd : NodeData) : N :=
  match nd.md with
  | none => mk 0 [] [] []
  | some id =>
    match reg[id]? with
    | none => mk 0 [] [] []
    | some m => mk id (expVars (dv id) m.vars nd.vars) (nd.lookups.map fun l => l.bind g)
        (expHyb g (dh id) m.hybrids nd.hybrids)

/-- Node-level well-formedness. -/
def WFAt (reg : Reg) (A : Arena) (p : Nat) (nd : NodeData) (id : Nat) (m : Meta) : Prop :=
  A[p]? = some nd ∧ nd.md = some id ∧ reg[id]? = some m ∧ nd.vars.length = m.vars.length ∧
    nd.lookups.length = m.lookups.length ∧ nd.hybrids.length = m.hybrids.length ∧ none ∉ nd.lookups

/-- Registered nodes are well formed and their children are registered. -/
def Good (reg : Reg) (A : Arena) (refs : List (Nat × Nat)) : Prop :=
  ∀ p k, refs.lookup p = some k → ∃ nd id m, WFAt reg A p nd id m ∧
    ∀ c, LinkND A p c → ∃ k', refs.lookup c = some k'

/-- Decoded nodes correspond to registered nodes. -/
structure Corr (reg : Reg) (mk : Nat → List UInt32 → List (Option Nat) → List (Option Nat × UInt32) → N)
    (dv dh : Nat → List UInt32) (A : Arena) (refs : List (Nat × Nat)) (out : List N) : Prop where
  len : out.length = refs.length
  node : ∀ p k nd, refs.lookup p = some k → A[p]? = some nd →
    out[k]? = some (expNode reg mk dv dh (fun q => refs.lookup q) nd)

theorem map_bind_congr {g g' : Nat → Option Nat} {l : List (Option Nat)}
    (h : ∀ c, some c ∈ l → g c = g' c) : l.map (fun x => x.bind g) = l.map (fun x => x.bind g') := by
  apply List.map_congr_left
  intro x hx
  cases x with
  | none => rfl
  | some c => exact h c hx

theorem expHyb_congr {g g' : Nat → Option Nat} : ∀ (cs ds : List UInt32) (hs : List (Option Nat × UInt32)),
    (∀ c v, (some c, v) ∈ hs → g c = g' c) → expHyb g cs ds hs = expHyb g' cs ds hs := by
  intro cs
  induction cs with
  | nil => intro ds hs _; simp [expHyb]
  | cons c cs ih =>
    intro ds hs h
    match ds, hs with
    | [], _ => simp [expHyb]
    | d :: ds, [] => simp [expHyb]
    | d :: ds, (none, v) :: hs =>
      simp only [expHyb]
      rw [ih ds hs (fun c v hc => h c v (List.mem_cons_of_mem _ hc))]
    | d :: ds, (some p, v) :: hs =>
      simp only [expHyb]
      rw [ih ds hs (fun c v hc => h c v (List.mem_cons_of_mem _ hc)), h p v (List.mem_cons_self ..)]

theorem expNode_congr {g g' : Nat → Option Nat} {nd : NodeData}
    (h1 : ∀ c, some c ∈ nd.lookups → g c = g' c) (h2 : ∀ c v, (some c, v) ∈ nd.hybrids → g c = g' c) :
    expNode reg mk dv dh g nd = expNode reg mk dv dh g' nd := by
  unfold expNode
  split
  · rfl
  · split
    · rfl
    · rw [map_bind_congr h1, expHyb_congr _ _ _ h2]

theorem expNode_of {A : Arena} {p : Nat} {nd : NodeData} {id : Nat} {m : Meta} (h : WFAt reg A p nd id m)
    (g : Nat → Option Nat) :
    expNode reg mk dv dh g nd = mk id (expVars (dv id) m.vars nd.vars) (nd.lookups.map fun l => l.bind g)
      (expHyb g (dh id) m.hybrids nd.hybrids) := by
  unfold expNode
  simp [h.2.1, h.2.2.1]

theorem linkND_lookup {A : Arena} {p c : Nat} {nd : NodeData} (h : A[p]? = some nd) (hc : some c ∈ nd.lookups) :
    LinkND A p c := ⟨nd, h, Or.inl hc⟩
theorem linkND_hybrid {A : Arena} {p c : Nat} {v : UInt32} {nd : NodeData} (h : A[p]? = some nd)
    (hc : (some c, v) ∈ nd.hybrids) : LinkND A p c := ⟨nd, h, Or.inr ⟨v, hc⟩⟩

/-- Registering a new node keeps the correspondence. -/
theorem Corr.push {A : Arena} {refs : List (Nat × Nat)} {out : List N} {p : Nat} {nd : NodeData}
    (h : Corr reg mk dv dh A refs out) (hg : Good reg A refs) (hl : refs.length < 65536)
    (hp : refs.lookup p = none) (hA : A[p]? = some nd)
    (hch : ∀ c, LinkND A p c → ∃ k, refs.lookup c = some k) :
    Corr reg mk dv dh A ((p, refs.length % 65536) :: refs)
      (out ++ [expNode reg mk dv dh (fun q => refs.lookup q) nd]) := by
  have hne : ∀ c, (∃ k, refs.lookup c = some k) →
      refs.lookup c = ((p, refs.length % 65536) :: refs).lookup c := by
    rintro c ⟨k, hk⟩
    rw [lookup_cons, if_neg]
    rintro rfl; rw [hp] at hk; simp at hk
  refine ⟨by simp [h.len], ?_⟩
  intro q k nq hq hAq
  rw [lookup_cons] at hq
  split at hq
  · rename_i e; subst e
    rw [hA] at hAq; cases hAq
    simp at hq; subst hq
    rw [Nat.mod_eq_of_lt hl, ← h.len]
    simp only [List.getElem?_concat_length, Option.some.injEq]
    rw [Nat.mod_eq_of_lt hl] at hne
    rw [h.len]
    exact expNode_congr (fun c hc => hne c (hch c (linkND_lookup hA hc)))
      (fun c v hc => hne c (hch c (linkND_hybrid hA hc)))
  · have h1 := h.node q k nq hq hAq
    rw [List.getElem?_append_left (List.getElem?_eq_some_iff.mp h1).1, h1]
    obtain ⟨nd', _, _, _, hcl⟩ := hg q k hq
    exact congrArg some (expNode_congr (fun c hc => hne c (hcl c (linkND_lookup hAq hc)))
      (fun c v hc => hne c (hcl c (linkND_hybrid hAq hc))))

theorem Good.push {A : Arena} {refs : List (Nat × Nat)} {p k : Nat} (hg : Good reg A refs)
    (hp : refs.lookup p = none)
    (h : ∃ nd id m, WFAt reg A p nd id m) (hch : ∀ c, LinkND A p c → ∃ k, refs.lookup c = some k) :
    Good reg A ((p, k) :: refs) := by
  have hne : ∀ c, (∃ k, refs.lookup c = some k) → ∃ k', ((p, k) :: refs).lookup c = some k' := by
    rintro c ⟨k', hk⟩
    refine ⟨k', ?_⟩
    rw [lookup_cons, if_neg, hk]
    rintro rfl; rw [hp] at hk; simp at hk
  intro q kq hq
  rw [lookup_cons] at hq
  split at hq
  · rename_i e; subst e
    obtain ⟨nd, id, m, hw⟩ := h
    exact ⟨nd, id, m, hw, fun c hc => hne c (hch c hc)⟩
  · obtain ⟨nd, id, m, hw, hcl⟩ := hg q kq hq
    exact ⟨nd, id, m, hw, fun c hc => hne c (hcl c hc)⟩

end FastNoise.RT
