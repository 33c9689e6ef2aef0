import Verif.SerLemmas
import Verif.Base64Props
import Mathlib.Data.List.Perm.Subperm
import Mathlib.Data.List.Range

/-! Helper lemmas: totality of the serialiser without fixUp, decoder instances, the combined round trip. -/
namespace FastNoise.RT
open FastNoise.Stream FastNoise.Ser FastNoise.Deser FastNoise.Spec FastNoise.Registry
open Relation

theorem nodup_length_le {l : List Nat} {n : Nat} (hd : l.Nodup) (h : ∀ x ∈ l, x < n) : l.length ≤ n := by
  have : l.Subperm (List.range n) := hd.subperm (fun x hx => List.mem_range.mpr (h x hx))
  simpa using this.length_le

theorem nodup_length_le' {l m : List Nat} (hd : l.Nodup) (h : ∀ x ∈ l, x ∈ m) : l.length ≤ m.length :=
  (hd.subperm h).length_le

/-- Every pointer below `root` is valid and every metadata pointer is registered. -/
def Safe (reg : Reg) (A : Arena) (root : Nat) : Prop :=
  ∀ p, ReflTransGen (LinkND A) root p → ∃ nd, A[p]? = some nd ∧ ∀ id, nd.md = some id → ∃ m, reg[id]? = some m

/-- Every node below `root` is well formed. -/
def AllWF (reg : Reg) (A : Arena) (root : Nat) : Prop :=
  ∀ p, ReflTransGen (LinkND A) root p → ∃ nd id m, WFAt reg A p nd id m

def Tot (reg : Reg) (A : Arena) (ptr : Nat) (r : SR) : Prop :=
  ∃ b st', r = .done b st' ∧ st'.arena = A ∧ (AllWF reg A ptr → b = true)

theorem serLookups_tot {reg : Reg} {A : Arena} {rec : Nat → List Nat → St → SR} {ptr : Nat} {nd : NodeData}
    {deps : List Nat} (hA : A[ptr]? = some nd)
    (hrec : ∀ c st, LinkND A ptr c → st.arena = A → Tot reg A c (rec c deps st)) :
    ∀ (ks : List Kind) (i : Nat) (st : St), st.arena = A → i + ks.length ≤ nd.lookups.length →
    Tot reg A ptr (serLookups reg false rec ptr deps i ks st) := by
  intro ks
  induction ks with
  | nil => intro i st ha _; exact ⟨true, st, by simp [serLookups], ha, fun _ => rfl⟩
  | cons k ks ih =>
    intro i st ha hi
    simp only [List.length_cons] at hi
    obtain ⟨x, hx⟩ : ∃ x, nd.lookups[i]? = some x := ⟨_, List.getElem?_eq_getElem (by omega)⟩
    simp only [serLookups, ha, hA, hx, Bool.false_eq_true, if_false]
    cases x with
    | none =>
      refine ⟨false, st, rfl, ha, fun hw => ?_⟩
      obtain ⟨nd', _, _, hw⟩ := hw ptr .refl
      rw [hw.1] at hA; cases hA
      exact absurd (List.mem_of_getElem? hx) hw.2.2.2.2.2.2
    | some c =>
      have hlink : LinkND A ptr c := linkND_lookup hA (List.mem_of_getElem? hx)
      obtain ⟨b, st', e, ha', hb⟩ := hrec c st hlink ha
      simp only [e]
      cases b with
      | true => exact ih (i + 1) st' ha' (by omega)
      | false => exact ⟨false, st', rfl, ha', fun hw => hb fun p hp => hw p (hp.head hlink)⟩

theorem serHybrids_tot {reg : Reg} {A : Arena} {rec : Nat → List Nat → St → SR} {ptr : Nat} {nd : NodeData}
    {deps : List Nat} (hA : A[ptr]? = some nd)
    (hrec : ∀ c st, LinkND A ptr c → st.arena = A → Tot reg A c (rec c deps st)) :
    ∀ (ds : List UInt32) (i : Nat) (st : St), st.arena = A → i + ds.length ≤ nd.hybrids.length →
    Tot reg A ptr (serHybrids reg false rec ptr deps i ds st) := by
  intro ds
  induction ds with
  | nil => intro i st ha _; exact ⟨true, st, by simp [serHybrids], ha, fun _ => rfl⟩
  | cons d ds ih =>
    intro i st ha hi
    simp only [List.length_cons] at hi
    obtain ⟨⟨x, v⟩, hx⟩ : ∃ x, nd.hybrids[i]? = some x := ⟨_, List.getElem?_eq_getElem (by omega)⟩
    simp only [serHybrids, ha, hA, hx, Bool.false_eq_true, if_false]
    cases x with
    | none => exact ih (i + 1) _ rfl (by omega)
    | some c =>
      have hlink : LinkND A ptr c := linkND_hybrid hA (List.mem_of_getElem? hx)
      obtain ⟨b, st', e, ha', hb⟩ := hrec c { arena := A, ws := st.ws.addLookup tHybridLookup i, refs := st.refs }
        hlink rfl
      simp only [e]
      cases b with
      | true => exact ih (i + 1) st' ha' (by omega)
      | false => exact ⟨false, st', rfl, ha', fun hw => hb fun p hp => hw p (hp.head hlink)⟩

theorem ser_tot {reg : Reg} {A : Arena} {root : Nat} (hs : Safe reg A root)
    (hac : ∀ p, ReflTransGen (LinkND A) root p → ¬ TransGen (LinkND A) p p) :
    ∀ (fuel ptr : Nat) (path deps : List Nat) (st : St), ReflTransGen (LinkND A) root ptr → st.arena = A →
      path.Nodup → (∀ q ∈ path, q < A.length ∧ TransGen (LinkND A) q ptr) → A.length < fuel + path.length →
      Tot reg A ptr (ser reg false fuel ptr deps st) := by
  intro fuel
  induction fuel with
  | zero =>
    intro ptr path deps st _ _ hn hp hf
    have := nodup_length_le hn (fun q hq => (hp q hq).1)
    omega
  | succ fuel ih =>
    intro ptr path deps st hr ha hn hp hf
    obtain ⟨nd, hA, hreg⟩ := hs ptr hr
    have hlt : ptr < A.length := (List.getElem?_eq_some_iff.mp hA).1
    rw [ser]
    simp only [ha, hA, Bool.false_eq_true, if_false]
    have hno : ∀ {P : Prop}, (AllWF reg A ptr → ∃ id m, nd.md = some id ∧ reg[id]? = some m ∧
        nd.vars.length = m.vars.length ∧ nd.lookups.length = m.lookups.length ∧
        nd.hybrids.length = m.hybrids.length) := by
      intro _ hw
      obtain ⟨nd', id, m, hw⟩ := hw ptr .refl
      rw [hw.1] at hA; cases hA
      exact ⟨id, m, hw.2.1, hw.2.2.1, hw.2.2.2.1, hw.2.2.2.2.1, hw.2.2.2.2.2.1⟩
    cases hid : nd.md with
    | none =>
      refine ⟨false, st, rfl, ha, fun hw => ?_⟩
      obtain ⟨id, m, h1, _⟩ := hno (P := True) hw
      rw [hid] at h1; simp at h1
    | some id =>
      obtain ⟨m, hm⟩ := hreg id hid
      simp only [hm]
      split
      · rename_i hsz
        refine ⟨false, st, rfl, ha, fun hw => ?_⟩
        obtain ⟨id', m', h1, h2, h3⟩ := hno (P := True) hw
        rw [hid] at h1; cases h1
        rw [hm] at h2; cases h2
        omega
      · rename_i hsz
        cases href : st.refs.lookup ptr with
        | some r => exact ⟨true, _, rfl, rfl, fun _ => rfl⟩
        | none =>
          simp only
          have hrec : ∀ c st, LinkND A ptr c → st.arena = A →
              Tot reg A c (ser reg false fuel c deps st) := by
            intro c st hlink ha
            have hmem : ptr ∉ path := fun hmem => hac ptr hr (hp ptr hmem).2
            refine ih c (ptr :: path) deps st (hr.tail hlink) ha (List.nodup_cons.mpr ⟨hmem, hn⟩) ?_ (by simp; omega)
            intro q hq
            rcases List.mem_cons.mp hq with e | e
            · rw [e]; exact ⟨hlt, .single hlink⟩
            · exact ⟨(hp q e).1, (hp q e).2.tail hlink⟩
          obtain ⟨b1, st1, e1, a1, w1⟩ := serLookups_tot hA hrec m.lookups 0 (St.mk A (if m.lookups.length ≠ 0 then
              (serVars (st.ws.add [UInt8.ofNat id]) 0 nd.vars m.vars).addLookup tLookup m.lookups.length else
              serVars (st.ws.add [UInt8.ofNat id]) 0 nd.vars m.vars) st.refs) rfl (by omega)
          rw [e1]
          cases b1 with
          | false => exact ⟨false, st1, rfl, a1, w1⟩
          | true =>
            simp only
            obtain ⟨b2, st2, e2, a2, w2⟩ := serHybrids_tot hA hrec m.hybrids 0 st1 a1 (by omega)
            rw [e2]
            cases b2 with
            | false => exact ⟨false, st2, rfl, a2, w2⟩
            | true => exact ⟨true, _, rfl, a2, fun _ => rfl⟩

/-! ### Decoder instances -/

theorem nd_mk (reg : Reg) : OpsMk reg (ndOps reg) (fun id V L H => { md := some id, vars := V, lookups := L, hybrids := H })
    (fun n => n.md.getD 0) (fun id => ((reg[id]?).map (·.vars)).getD []) (fun id => ((reg[id]?).map (·.hybrids)).getD [])
    (fun _ _ _ => True) where
  idOf_mk := by intros; rfl
  dvlen := by intro id m h; simp [h]
  create := by intro id m h; simp [ndOps, newNodeData, h]
  setVar := by intro id V L H i v h; simp [ndOps, setAt, h]
  setLookup := by intro id m out V L H i c cid _ _ h _ _; simp [ndOps, setAt, h]
  setHybNode := by intro id V L H i c d h; simp [ndOps, h]
  setHybVal := by intro id V L H i v d h; simp [ndOps, h]

/-- Slot `i` of class `id` accepts class `cid`. -/
def Accepts (reg : Reg) (id i cid : Nat) : Prop :=
  ∃ m k mc, reg[id]? = some m ∧ m.lookups[i]? = some k ∧ reg[cid]? = some mc ∧ accepts k mc = true

theorem sn_mk (reg : Reg) (cd : List ClassDefaults) (hcd : CdOK reg cd) :
    OpsMk reg (snOps reg cd true)
      (fun id V L H => { id := id, vars := V, lookups := L.map (Option.map Src.node), hybrids := H.map fun h => (h.1.map Src.node, h.2) })
      (fun n => n.id) (fun id => ((cd[id]?).map (·.vars)).getD []) (fun id => ((cd[id]?).map (·.hybrids)).getD [])
      (Accepts reg) where
  idOf_mk := by intros; rfl
  dvlen := by
    intro id m h
    have hlt := (List.getElem?_eq_some_iff.mp h).1
    rw [← hcd.1] at hlt
    have hc := List.getElem?_eq_getElem hlt
    have := hcd.2 id m _ h hc
    simp [hc, this]
  create := by
    intro id m h
    have hlt := (List.getElem?_eq_some_iff.mp h).1
    rw [← hcd.1] at hlt
    have hc := List.getElem?_eq_getElem hlt
    simp [snOps, h, hc]
  setVar := by intro id V L H i v h; simp [snOps, setAt, h]
  setLookup := by
    intro id m out V L H i c cid hm hi hL hout hacc
    obtain ⟨m', k, mc, h1, h2, h3, h4⟩ := hacc
    rw [hm] at h1; cases h1
    cases hg : out[c]? with
    | none => simp [hg] at hout
    | some g =>
      simp [hg] at hout
      subst hout
      simp [snOps, hm, h2, hg, h3, h4, setAt, hL]
  setHybNode := by intro id V L H i c d h; simp [snOps, h]
  setHybVal := by intro id V L H i v d h; simp [snOps, h]

/-! ### Combination -/

theorem Numbered.nodup {refs : List (Nat × Nat)} (h : Numbered refs) : (refs.map Prod.fst).Nodup ∧
    ∀ p ∈ refs.map Prod.fst, ∃ k, refs.lookup p = some k := by
  induction h with
  | nil => simp
  | cons h1 h2 ih =>
    rename_i q refs
    refine ⟨?_, ?_⟩
    · simp only [List.map_cons, List.nodup_cons]
      refine ⟨fun hq => ?_, ih.1⟩
      obtain ⟨k, hk⟩ := ih.2 q hq
      rw [h2] at hk; simp at hk
    · intro p hp
      rw [lookup_cons]
      split
      · exact ⟨_, rfl⟩
      · rename_i hne
        simp only [List.map_cons, List.mem_cons] at hp
        exact ih.2 p (hp.resolve_left hne)

theorem good_reach {reg : Reg} {A : Arena} {refs : List (Nat × Nat)} (hg : Good reg A refs) {root k : Nat}
    (hk : refs.lookup root = some k) : ∀ p, ReflTransGen (LinkND A) root p → ∃ k', refs.lookup p = some k' := by
  intro p hp
  induction hp with
  | refl => exact ⟨k, hk⟩
  | tail _ hl ih =>
    obtain ⟨k', hk'⟩ := ih
    obtain ⟨nd, id, m, _, hc⟩ := hg _ k' hk'
    exact hc _ hl

theorem lookup_mem {refs : List (Nat × Nat)} {p k : Nat} (h : refs.lookup p = some k) : (p, k) ∈ refs := by
  induction refs with
  | nil => simp [List.lookup] at h
  | cons x refs ih =>
    obtain ⟨a, b⟩ := x
    rw [lookup_cons] at h
    split at h
    · rename_i e; simp at h; simp [e, h]
    · exact List.mem_cons_of_mem _ (ih h)

/-- All the facts about one call of the serialiser. -/
theorem serialise_facts {reg : Reg} (hreg : RegOK reg) {A : Arena} {root : Nat} (hs : Safe reg A root)
    (hac : ∀ p, ReflTransGen (LinkND A) root p → ¬ TransGen (LinkND A) p p) :
    (¬ AllWF reg A root ∧ serialise reg false A root = .text [] A) ∨
    (AllWF reg A root ∧ ∃ ts refs k, 
      serStream reg false (A.length + 1) A root = .done true { arena := A, ws := { stream := phys 0 ts, stack := 0 }, refs := refs } ∧
      (∃ fuel st', ser reg false fuel root [] { arena := A, ws := { stream := [], stack := 0 }, refs := [] } = .done true st' ∧
        st'.refs = refs ∧ st'.ws = WS.toks { stream := [], stack := 0 } ts) ∧
      refs.lookup root = some k ∧ Numbered refs ∧ Good reg A refs ∧
      (∀ p ∈ refs.map Prod.fst, ReflTransGen (LinkND A) root p) ∧
      2 ≤ (phys 0 ts).length ∧ (phys 0 ts).length ≤ 512 * refs.length + 3 ∧ ¬ HasRun 48 (0 : UInt8) (phys 0 ts)) := by
  obtain ⟨b, st', e, ha, hb⟩ := ser_tot hs hac (A.length + 1) root [] []
    { arena := A, ws := { stream := [], stack := 0 }, refs := [] } .refl rfl List.nodup_nil (by simp) (by simp)
  have hT : Typed (fun _ _ _ => True) A root := fun _ _ _ _ _ _ _ _ _ _ _ _ _ => trivial
  cases b with
  | false =>
    refine Or.inl ⟨fun hw => by simpa using hb hw, ?_⟩
    simp only [serialise, finishWith, serStream, e, ha]
  | true =>
    right
    obtain ⟨ts, new, k, S, hpos, hk, D⟩ := main (nd_mk reg) hreg hT hac (A.length + 1) root [] _ st' rfl .refl .nil
      (by intro p k h; simp [List.lookup] at h) e
    have hL := ser_L hreg A (A.length + 1) root [] _ st' rfl hac e
    have hz := ser_Z hreg false (A.length + 1) root [] _ st' e ⟨rfl, fun _ => by simp [zscan]⟩
    obtain ⟨hf, hf2⟩ := toks_phys ts { stream := [], stack := 0 } (by simp)
    have hws := S.ws
    simp only at hws
    have hfl : st'.ws.flush = { stream := phys 0 ts, stack := 0 } := by
      have h1 := WS.flush_stack st'.ws
      rw [hws] at h1 ⊢
      simp at hf
      cases hx : (WS.toks { stream := [], stack := 0 } ts).flush with
      | mk a b =>
        rw [hx] at hf h1
        simp at hf h1
        rw [hf, h1]
    refine ⟨?_, ts, st'.refs, k, ?_, ⟨_, st', e, rfl, hws⟩, hk, S.num, S.good, ?_, ?_, ?_, ?_⟩
    · intro p hp
      obtain ⟨k', hk'⟩ := good_reach S.good hk p hp
      obtain ⟨nd, id, m, hw, _⟩ := S.good p k' hk'
      exact ⟨nd, id, m, hw⟩
    · simp only [serStream, e, hfl, ha]
    · intro p hp
      rw [S.refs] at hp
      simp at hp
      obtain ⟨b, hb⟩ := hp
      exact S.below _ hb
    · have := hL.2
      simp only [wl, hfl] at this
      simp [WS.flush] at this
      exact this
    · have := hL.1.le
      simp only [wl, hfl] at this
      simp [WS.flush] at this
      exact this
    · have := hz.flush.1
      rw [hfl] at this
      exact zscan_norun this

theorem finish_done {enc : List UInt8 → Option (List UInt8)} {r : SR} {st : St} {t : List UInt8}
    (h : r = .done true st) (ht : enc st.ws.stream = some t) : finishWith enc r = .text t st.arena := by
  subst h; simp only [finishWith, ht]

theorem serialise_of_done {reg : Reg} {fixUp : Bool} {A : Arena} {root : Nat} {st : St} {t : List UInt8}
    (h : serStream reg fixUp (A.length + 1) A root = .done true st) (ht : Base64.encode st.ws.stream = some t) :
    serialise reg fixUp A root = .text t st.arena := by
  unfold serialise
  exact finish_done h ht

/-- The combined round trip for either decoder. -/
theorem roundtrip_core {N : Type} {reg : Reg} {o : Ops N}
    {mk : Nat → List UInt32 → List (Option Nat) → List (Option Nat × UInt32) → N} {idOf : N → Nat}
    {dv dh : Nat → List UInt32} {acc : Nat → Nat → Nat → Prop} (hO : OpsMk reg o mk idOf dv dh acc)
    (hreg : RegOK reg) {A : Arena} {root : Nat} (hs : Safe reg A root)
    (hac : ∀ p, ReflTransGen (LinkND A) root p → ¬ TransGen (LinkND A) p p) (hT : Typed acc A root)
    (hw : AllWF reg A root) (h16 : ∃ l : List Nat, l.length ≤ 65536 ∧ ∀ p, ReflTransGen (LinkND A) root p → p ∈ l) :
    ∃ text stream refs k out, serialise reg false A root = .text text A ∧ Base64.decode text = .done stream ∧
      run (decNode reg o (stream.length + 1)) stream = .tree k out ∧ refs.lookup root = some k ∧ Numbered refs ∧
      Good reg A refs ∧ refs.length ≤ 65536 ∧ Corr reg mk dv dh A refs out ∧
      (∀ p ∈ refs.map Prod.fst, ReflTransGen (LinkND A) root p) := by
  rcases serialise_facts hreg hs hac with ⟨h, _⟩ | ⟨_, ts, refs, k, h1, ⟨fuel, st', e, er, ew⟩, hk, hn, hg, hrch, h2, h3, h4⟩
  · exact absurd hw h
  · obtain ⟨l, hl, hl2⟩ := h16
    have hlen : refs.length ≤ 65536 := by
      have := nodup_length_le' hn.nodup.1 (fun p hp => hl2 p (hrch p hp))
      simp at this; omega
    have hmax : (phys 0 ts).length < 2 ^ 64 := by omega
    obtain ⟨text, t1, t2, t3, t4⟩ := Base64.C01_roundtrip_iff _ h2 hmax
    have hdec : Base64.decode text = .done (phys 0 ts) := by
      have := Base64.C01_roundtrip_partial _ h2 hmax h4
      rw [t1] at this
      simpa using this
    obtain ⟨ts', new, k', S, hpos, hk', D⟩ := main hO hreg hT hac fuel root [] _ st' rfl .refl .nil
      (by intro p k h; simp [List.lookup] at h) e
    have hk2 : k' = k := by rw [er, hk] at hk'; simpa using hk'.symm
    subst hk2
    obtain ⟨hf, _⟩ := toks_phys ts { stream := [], stack := 0 } (by simp)
    obtain ⟨hf', _⟩ := toks_phys ts' { stream := [], stack := 0 } (by simp)
    have hts : phys 0 ts' = phys 0 ts := by
      have := S.ws
      simp only at this
      rw [ew] at this
      rw [this] at hf
      rw [hf] at hf'
      simpa using hf'.symm
    have hraw : nraw ts' ≤ (phys 0 ts).length := by rw [← hts]; exact nraw_phys ts' 0
    have hR : Rep (start (N := N) (phys 0 ts)).rs (ts' ++ []) := by
      rw [List.append_nil, ← hts]; exact rep_start ts'
    have hC : Corr reg mk dv dh A [] (start (N := N) (phys 0 ts)).out :=
      ⟨rfl, by intro p k nd h; simp [List.lookup] at h⟩
    have hfu : nraw ts' < (phys 0 ts).length + 1 := Nat.lt_succ_of_le hraw
    generalize hst : start (N := N) (phys 0 ts) = s0 at hR hC
    have hlen' : st'.refs.length ≤ 65536 := by rw [er]; exact hlen
    obtain ⟨s', d1, d2, d3, d4⟩ := D hlen' [] s0 ((phys 0 ts).length + 1) hfu hR hC
    refine ⟨text, phys 0 ts, refs, k', s'.out, ?_, hdec, ?_, hk, hn, hg, hlen, by rw [← er]; exact d3, hrch⟩
    · exact serialise_of_done h1 t1
    · simp only [run, hst, d1]

end FastNoise.RT
