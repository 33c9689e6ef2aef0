import Verif.RoundTrip

/-! Helper lemmas: the main induction for decoding what the serialiser wrote. -/
namespace FastNoise.RT
open FastNoise.Stream FastNoise.Ser FastNoise.Deser FastNoise.Spec FastNoise.Registry
open Relation

variable {N : Type} {reg : Reg} {o : Ops N}
  {mk : Nat → List UInt32 → List (Option Nat) → List (Option Nat × UInt32) → N} {idOf : N → Nat}
  {dv dh : Nat → List UInt32} {acc : Nat → Nat → Nat → Prop}

/-- Facts about a successful serialisation step from `st` to `st'`: tokens written, new references, all
below `S`. -/
structure Step (reg : Reg) (A : Arena) (st st' : St) (ts : List Tok) (new : List (Nat × Nat))
    (S : Nat → Prop) : Prop where
  arena : st'.arena = A
  ws : st'.ws = st.ws.toks ts
  refs : st'.refs = new ++ st.refs
  below : ∀ q ∈ new, S q.1
  num : Numbered st'.refs
  good : Good reg A st'.refs

theorem Step.mono_lookup {A : Arena} {st st' : St} {ts new S} (h : Step reg A st st' ts new S) {p k : Nat}
    (hk : st.refs.lookup p = some k) : st'.refs.lookup p = some k := by
  have := h.num
  rw [h.refs] at this ⊢
  exact this.mono hk

theorem Step.trans {A : Arena} {st st' st'' : St} {ts ts' new new' S S'} {T : Nat → Prop}
    (h : Step reg A st st' ts new S) (h' : Step reg A st' st'' ts' new' S')
    (hS : ∀ q, S q → T q) (hS' : ∀ q, S' q → T q) :
    Step reg A st st'' (ts ++ ts') (new' ++ new) T where
  arena := h'.arena
  ws := by rw [h'.ws, h.ws, WS.toks_append]
  refs := by rw [h'.refs, h.refs, List.append_assoc]
  below := by
    intro q hq
    rcases List.mem_append.mp hq with h1 | h1
    · exact hS' _ (h'.below q h1)
    · exact hS _ (h.below q h1)
  num := h'.num
  good := h'.good

theorem Step.refs_le {A : Arena} {st st' : St} {ts new S} (h : Step reg A st st' ts new S) :
    st.refs.length ≤ st'.refs.length := by rw [h.refs]; simp

/-- Conclusion of the main induction for one node. -/
def MainC (reg : Reg) (o : Ops N)
    (mk : Nat → List UInt32 → List (Option Nat) → List (Option Nat × UInt32) → N)
    (dv dh : Nat → List UInt32) (A : Arena) (ptr : Nat) (st st' : St) : Prop :=
  ∃ ts new k, Step reg A st st' ts new (ReflTransGen (LinkND A) ptr) ∧ 0 < nraw ts ∧
    st'.refs.lookup ptr = some k ∧
    (st'.refs.length ≤ 65536 → ∀ rest (s : DSt N) dfuel, nraw ts < dfuel → Rep s.rs (ts ++ rest) →
      Corr reg mk dv dh A st.refs s.out →
      ∃ s', decNode reg o dfuel s = .ok k s' ∧ Rep s'.rs rest ∧ Corr reg mk dv dh A st'.refs s'.out ∧
        s'.rs.stream = s.rs.stream)

/-- The main induction hypothesis at a given fuel. -/
def Main (reg : Reg) (o : Ops N)
    (mk : Nat → List UInt32 → List (Option Nat) → List (Option Nat × UInt32) → N)
    (dv dh : Nat → List UInt32) (A : Arena) (root fuel : Nat) : Prop :=
  ∀ ptr deps st st', st.arena = A → ReflTransGen (LinkND A) root ptr → Numbered st.refs → Good reg A st.refs →
    ser reg false fuel ptr deps st = .done true st' → MainC reg o mk dv dh A ptr st st'

/-- Every link of the graph below `root` is accepted by the slot's class. -/
def Typed (acc : Nat → Nat → Nat → Prop) (A : Arena) (root : Nat) : Prop :=
  ∀ p (i : Nat) c nd nc id cid, ReflTransGen (LinkND A) root p → A[p]? = some nd → nd.md = some id →
    nd.lookups[i]? = some (some c) → A[c]? = some nc → nc.md = some cid → acc id i cid

theorem tryNull_rec {rec : M N Nat} {s s' : DSt N} {k : Nat} (h : rec s = .ok k s') :
    tryNull rec s = .ok (some k) s' := by simp [tryNull, h]

theorem lookups_dec (hO : OpsMk reg o mk idOf dv dh acc) {A : Arena} {root fuel ptr id : Nat}
    (hrec : Main reg o mk dv dh A root fuel) (hT : Typed acc A root)
    (hroot : ReflTransGen (LinkND A) root ptr) {nd : NodeData} {m : Meta} (hA : A[ptr]? = some nd)
    (hid : nd.md = some id) (hm : reg[id]? = some m) (deps : List Nat) :
    ∀ (ks : List Kind) (pre rst : List (Option Nat)) (st st' : St), nd.lookups = pre ++ rst →
      rst.length = ks.length → pre.length + ks.length = m.lookups.length → st.arena = A →
      Numbered st.refs → Good reg A st.refs →
      serLookups reg false (ser reg false fuel) ptr deps pre.length ks st = .done true st' →
      ∃ ts new, Step reg A st st' ts new (TransGen (LinkND A) ptr) ∧ none ∉ rst ∧
        (∀ c, some c ∈ rst → ∃ k, st'.refs.lookup c = some k) ∧
        (st'.refs.length ≤ 65536 → ∀ rest (s : DSt N) dfuel V H (Le : List (Option Nat)),
          Le.length = pre.length → nraw ts < dfuel → Rep s.rs (ts ++ rest) →
          Corr reg mk dv dh A st.refs s.out →
          ∃ s', childLoop o m.lookups.length (decNode reg o dfuel) ks.length pre.length
              (mk id V (Le ++ List.replicate ks.length none) H) s =
              .ok (mk id V (Le ++ rst.map fun l => l.bind fun q => st'.refs.lookup q) H) s' ∧
            Rep s'.rs rest ∧ Corr reg mk dv dh A st'.refs s'.out ∧ s'.rs.stream = s.rs.stream) := by
  intro ks
  induction ks with
  | nil =>
    intro pre rst st st' hl hr hlen ha hn hg h
    simp [serLookups] at h
    subst h
    have : rst = [] := List.length_eq_zero_iff.mp hr
    subst this
    refine ⟨[], [], ⟨ha, by simp, by simp, by simp, hn, hg⟩, by simp, by simp, ?_⟩
    intro _ rest s dfuel V H Le _ _ hR hC
    exact ⟨s, by simp [childLoop, M.pure], by simpa using hR, hC, rfl⟩
  | cons kd ks ih =>
    intro pre rst st st' hl hr hlen ha hn hg h
    match rst, hr with
    | x :: rst, hr =>
      simp at hr
      have hget : nd.lookups[pre.length]? = some x := by rw [hl]; simp
      simp only [serLookups, ha, hA, hget, Bool.false_eq_true, if_false] at h
      cases x with
      | none => simp at h
      | some child =>
        simp only at h
        cases hs1 : ser reg false fuel child deps st with
        | ub => rw [hs1] at h; simp at h
        | nofuel => rw [hs1] at h; simp at h
        | done b st1 =>
          rw [hs1] at h
          cases b with
          | false => simp at h
          | true =>
            simp only at h
            have hlink : LinkND A ptr child := linkND_lookup hA (by rw [hl]; simp)
            obtain ⟨ts1, new1, k1, S1, hpos1, hk1, D1⟩ :=
              hrec child deps st st1 ha (hroot.tail hlink) hn hg hs1
            have hlen1 : (pre ++ [some child]).length = pre.length + 1 := by simp
            obtain ⟨ts2, new2, S2, hnn, hch, D2⟩ := ih (pre ++ [some child]) rst st1 st' (by rw [hl]; simp) hr
              (by simp at hlen ⊢; omega) S1.arena S1.num S1.good (by rw [hlen1]; exact h)
            have hk1' := S2.mono_lookup hk1
            refine ⟨ts1 ++ ts2, new2 ++ new1, S1.trans S2 (fun q hq => TransGen.head' hlink hq) (fun q hq => hq),
              by simpa using hnn, ?_, ?_⟩
            · intro c hc
              rcases List.mem_cons.mp hc with e | e
              · cases e; exact ⟨k1, hk1'⟩
              · exact hch c e
            · intro h16 rest s dfuel V H Le hLe hf hR hC
              simp at hf
              obtain ⟨s1, e1, r1, c1, t1⟩ := D1 (by have := S2.refs_le; omega) (ts2 ++ rest) s dfuel (by omega)
                (by simpa using hR) hC
              obtain ⟨s2, e2, r2, c2, t2⟩ := D2 h16 rest s1 dfuel V H (Le ++ [some k1]) (by simp [hLe])
                (by omega) r1 c1
              refine ⟨s2, ?_, r2, c2, by rw [t2, t1]⟩
              simp only [List.length_cons, childLoop]
              rw [bind_ok (tryNull_rec e1), if_pos (by simp at hlen; omega)]
              obtain ⟨nc, cid, mc, hw, _⟩ := S1.good child k1 hk1
              have hout := c1.node child k1 nc hk1 hw.1
              rw [expNode_of hw] at hout
              have hset := hO.setLookup id m s1.out V (Le ++ List.replicate (ks.length + 1) none) H pre.length k1 cid
                hm (by simp at hlen; omega) (by simp [hLe]) (by rw [hout]; simp [hO.idOf_mk])
                (hT ptr pre.length child nd nc id cid hroot hA hid hget hw.1 hw.2.1)
              have hL : (Le ++ List.replicate (ks.length + 1) none).set pre.length (some k1) =
                  (Le ++ [some k1]) ++ List.replicate ks.length none := by
                rw [← hLe, List.set_append_right _ _ (by omega)]
                simp [List.replicate_succ]
              rw [hL] at hset
              have hact : (fun s => act (o.setLookup s.out (mk id V (Le ++ List.replicate (ks.length + 1) none) H)
                  pre.length (some k1)) s) s1 = .ok (mk id V ((Le ++ [some k1]) ++ List.replicate ks.length none) H) s1 := by
                simp [hset, act, M.pure]
              rw [bind_ok (x := fun s => act (o.setLookup s.out
                (mk id V (Le ++ List.replicate (ks.length + 1) none) H) pre.length (some k1)) s) hact]
              rw [hlen1] at e2
              rw [e2]
              simp [hk1']

/-- What a hybrid part of the stream can begin with. -/
def HStart (ts : List Tok) : Prop :=
  ts = [] ∨ ∃ t i ts', (t = tHybridLookup ∨ t = tHybridVariable) ∧ i < 32 ∧ ts = .raw (lookupByte t i) :: ts'

theorem hybrids_dec (hO : OpsMk reg o mk idOf dv dh acc) {A : Arena} {root fuel ptr id : Nat}
    (hrec : Main reg o mk dv dh A root fuel)
    (hroot : ReflTransGen (LinkND A) root ptr) {nd : NodeData} {nH : Nat} (hA : A[ptr]? = some nd)
    (h32 : nH ≤ 32) (deps : List Nat) :
    ∀ (ds cs : List UInt32) (pre rst : List (Option Nat × UInt32)) (st st' : St), nd.hybrids = pre ++ rst →
      rst.length = ds.length → cs.length = ds.length → pre.length + ds.length = nH → st.arena = A →
      Numbered st.refs → Good reg A st.refs →
      serHybrids reg false (ser reg false fuel) ptr deps pre.length ds st = .done true st' →
      ∃ ts new, Step reg A st st' ts new (TransGen (LinkND A) ptr) ∧ HStart ts ∧
        (∀ c v, (some c, v) ∈ rst → ∃ k, st'.refs.lookup c = some k) ∧
        (st'.refs.length ≤ 65536 → ∀ rest (s : DSt N) dfuel V L (He : List (Option Nat × UInt32)) old lf,
          He.length = pre.length → nraw ts < dfuel → nraw ts < lf → Rep s.rs (ts ++ rest) →
          Corr reg mk dv dh A st.refs s.out →
          ∃ s' old' lf', 0 < lf' ∧ Rep s'.rs rest ∧ Corr reg mk dv dh A st'.refs s'.out ∧
            s'.rs.stream = s.rs.stream ∧
            (getLk old >>= fun l => hybLoop o nH (decNode reg o dfuel) lf l
              (mk id V L (He ++ cs.map fun d => (none, d)))) s =
            (getLk old' >>= fun l => hybLoop o nH (decNode reg o dfuel) lf' l
              (mk id V L (He ++ expHyb (fun q => st'.refs.lookup q) cs ds rst))) s') := by
  intro ds
  induction ds with
  | nil =>
    intro cs pre rst st st' hl hr hc hlen ha hn hg h
    simp [serHybrids] at h
    subst h
    have : rst = [] := List.length_eq_zero_iff.mp hr
    subst this
    have : cs = [] := List.length_eq_zero_iff.mp hc
    subst this
    refine ⟨[], [], ⟨ha, by simp, by simp, by simp, hn, hg⟩, Or.inl rfl, by simp, ?_⟩
    intro _ rest s dfuel V L He old lf _ _ hlf hR hC
    exact ⟨s, old, lf, by simpa using hlf, by simpa using hR, hC, rfl, by simp [expHyb]⟩
  | cons d ds ih =>
    intro cs pre rst st st' hl hr hc hlen ha hn hg h
    match rst, cs, hr, hc with
    | x :: rst, cdef :: cs, hr, hc =>
      simp at hr hc
      have hget : nd.hybrids[pre.length]? = some x := by rw [hl]; simp
      obtain ⟨xl, xv⟩ := x
      have hlen1 : (pre ++ [(xl, xv)]).length = pre.length + 1 := by simp
      simp only [serHybrids, ha, hA, hget, Bool.false_eq_true, if_false] at h
      cases xl with
      | none =>
        simp only at h
        by_cases hfe : feq xv d = true
        · simp only [hfe, if_true] at h
          obtain ⟨ts, new, S, hst, hch, D⟩ := ih cs (pre ++ [(none, xv)]) rst { arena := A, ws := st.ws, refs := st.refs } st' (by rw [hl]; simp) hr hc
            (by simp at hlen ⊢; omega) rfl hn hg (by rw [hlen1]; exact h)
          refine ⟨ts, new, ⟨S.arena, S.ws, S.refs, S.below, S.num, S.good⟩, hst, ?_, ?_⟩
          · intro c v hcv
            rcases List.mem_cons.mp hcv with e | e
            · simp at e
            · exact hch c v e
          · intro h16 rest s dfuel V L He old lf hHe hf hlf hR hC
            obtain ⟨s', old', lf', f1, f2, f3, f4, f5⟩ := D h16 rest s dfuel V L (He ++ [(none, cdef)]) old lf
              (by simp [hHe]) hf hlf hR hC
            refine ⟨s', old', lf', f1, f2, f3, f4, ?_⟩
            rw [show He ++ (cdef :: cs).map (fun d => ((none : Option Nat), d)) =
              He ++ [(none, cdef)] ++ cs.map (fun d => ((none : Option Nat), d)) by simp, f5]
            simp [expHyb, hfe]
        · simp only [hfe, Bool.false_eq_true, if_false] at h
          obtain ⟨ts, new, S, hst, hch, D⟩ := ih cs (pre ++ [(none, xv)]) rst { arena := A, ws := (st.ws.addLookup tHybridVariable pre.length).add (le32 xv), refs := st.refs } st' (by rw [hl]; simp) hr hc
            (by simp at hlen ⊢; omega) rfl hn hg (by rw [hlen1]; exact h)
          refine ⟨.raw (lookupByte tHybridVariable pre.length) :: raws (le32 xv) ++ ts, new,
            ⟨S.arena, ?_, S.refs, S.below, S.num, S.good⟩,
            Or.inr ⟨tHybridVariable, pre.length, raws (le32 xv) ++ ts, Or.inr rfl, by simp at hlen; omega, rfl⟩, ?_, ?_⟩
          · rw [S.ws]
            simp only
            rw [WS.addLookup, toks_raw, toks_le32, ← WS.toks_append, ← WS.toks_append]; rfl
          · intro c v hcv
            rcases List.mem_cons.mp hcv with e | e
            · simp at e
            · exact hch c v e
          · intro h16 rest s dfuel V L He old lf hHe hf hlf hR hC
            simp at hf hlf hlen
            simp only [List.append_assoc, List.cons_append] at hR
            obtain ⟨s1, e1, r1, o1, t1⟩ := getLk_rep (N := N) (t := tHybridVariable) (by decide) (by decide)
              (i := pre.length) (by omega) hR old
            obtain ⟨s2, e2, r2, o2, t2⟩ := getN_rep (bs := le32 xv) (by simp [le32]) r1
            rw [le32_len] at e2
            obtain ⟨s', old', lf', f1, f2, f3, f4, f5⟩ := D h16 rest s2 dfuel V L (He ++ [(none, xv)]) pre.length
              (lf - 1) (by simp [hHe]) (by omega) (by omega) r2 (by rw [o2, o1]; exact hC)
            refine ⟨s', old', lf', f1, f2, f3, by rw [f4, t2, t1], ?_⟩
            rw [bind_ok e1]
            obtain ⟨f, rfl⟩ : ∃ f, lf = f + 1 := ⟨lf - 1, by omega⟩
            show hybLoop o nH _ (f + 1) _ _ s1 = _
            rw [hybLoop]
            simp only [show ¬ (tHybridVariable = tNodeEnd) by decide,
              show ¬ (tHybridVariable = tHybridLookup) by decide, if_true, if_false]
            rw [bind_ok e2]
            have hset := hO.setHybVal id V L (He ++ (cdef :: cs).map (fun d => ((none : Option Nat), d)))
              pre.length xv cdef (by rw [← hHe]; simp)
            have hL : (He ++ (cdef :: cs).map (fun d => ((none : Option Nat), d))).set pre.length (none, xv) =
                He ++ [(none, xv)] ++ cs.map (fun d => ((none : Option Nat), d)) := by
              rw [← hHe, List.set_append_right _ _ (by omega)]; simp
            rw [hL] at hset
            have hact : actIf (N := N) (pre.length < nH) (o.setHybVal (mk id V L (He ++ (cdef :: cs).map
                (fun d => ((none : Option Nat), d)))) pre.length (unle32 (le32 xv)))
                (mk id V L (He ++ (cdef :: cs).map (fun d => ((none : Option Nat), d)))) s2 =
                .ok (mk id V L (He ++ [(none, xv)] ++ cs.map (fun d => ((none : Option Nat), d)))) s2 := by
              unfold actIf
              rw [if_pos (by omega), unle32_le32, hset]; rfl
            rw [bind_ok hact]
            simp only [Nat.add_sub_cancel] at f5
            rw [f5]
            simp [expHyb, hfe]
      | some child =>
        simp only at h
        cases hs1 : ser reg false fuel child deps
            { arena := A, ws := st.ws.addLookup tHybridLookup pre.length, refs := st.refs } with
        | ub => rw [hs1] at h; simp at h
        | nofuel => rw [hs1] at h; simp at h
        | done b st1 =>
          rw [hs1] at h
          cases b with
          | false => simp at h
          | true =>
            simp only at h
            have hlink : LinkND A ptr child := linkND_hybrid hA (v := xv) (by rw [hl]; simp)
            obtain ⟨ts1, new1, k1, S1, hpos1, hk1, D1⟩ := hrec child deps
              { arena := A, ws := st.ws.addLookup tHybridLookup pre.length, refs := st.refs } st1 rfl (hroot.tail hlink) hn hg hs1
            obtain ⟨ts2, new2, S2, _, hch, D2⟩ := ih cs (pre ++ [(some child, xv)]) rst st1 st' (by rw [hl]; simp) hr hc
              (by simp at hlen ⊢; omega) S1.arena S1.num S1.good (by rw [hlen1]; exact h)
            have hk1' := S2.mono_lookup hk1
            have S12 := S1.trans S2 (T := TransGen (LinkND A) ptr) (fun q hq => TransGen.head' hlink hq)
              (fun q hq => hq)
            refine ⟨.raw (lookupByte tHybridLookup pre.length) :: (ts1 ++ ts2), new2 ++ new1,
              ⟨S12.arena, ?_, S12.refs, S12.below, S12.num, S12.good⟩,
              Or.inr ⟨tHybridLookup, pre.length, ts1 ++ ts2, Or.inl rfl, by simp at hlen; omega, rfl⟩, ?_, ?_⟩
            · rw [S12.ws]; rfl
            · intro c v hcv
              rcases List.mem_cons.mp hcv with e | e
              · cases e; exact ⟨k1, hk1'⟩
              · exact hch c v e
            · intro h16 rest s dfuel V L He old lf hHe hf hlf hR hC
              simp at hf hlf hlen
              simp only [List.append_assoc, List.cons_append] at hR
              obtain ⟨s0, e0, r0, o0, t0⟩ := getLk_rep (N := N) (t := tHybridLookup) (by decide) (by decide)
                (i := pre.length) (by omega) hR old
              obtain ⟨s1, e1, r1, c1, t1⟩ := D1 (by have := S2.refs_le; omega) (ts2 ++ rest) s0 dfuel (by omega)
                r0 (by rw [o0]; exact hC)
              obtain ⟨s', old', lf', f1, f2, f3, f4, f5⟩ := D2 h16 rest s1 dfuel V L (He ++ [(some k1, cdef)])
                pre.length (lf - 1) (by simp [hHe]) (by omega) (by omega) r1 c1
              refine ⟨s', old', lf', f1, f2, f3, by rw [f4, t1, t0], ?_⟩
              rw [bind_ok e0]
              obtain ⟨f, rfl⟩ : ∃ f, lf = f + 1 := ⟨lf - 1, by omega⟩
              show hybLoop o nH _ (f + 1) _ _ s0 = _
              rw [hybLoop]
              simp only [show ¬ (tHybridLookup = tNodeEnd) by decide, if_true, if_false]
              rw [bind_ok (tryNull_rec e1)]
              have hset := hO.setHybNode id V L (He ++ (cdef :: cs).map (fun d => ((none : Option Nat), d)))
                pre.length k1 cdef (by rw [← hHe]; simp)
              have hL : (He ++ (cdef :: cs).map (fun d => ((none : Option Nat), d))).set pre.length (some k1, cdef) =
                  He ++ [(some k1, cdef)] ++ cs.map (fun d => ((none : Option Nat), d)) := by
                rw [← hHe, List.set_append_right _ _ (by omega)]; simp
              rw [hL] at hset
              have hact : actIf (N := N) (pre.length < nH) (o.setHybNode (mk id V L (He ++ (cdef :: cs).map
                  (fun d => ((none : Option Nat), d)))) pre.length (some k1))
                  (mk id V L (He ++ (cdef :: cs).map (fun d => ((none : Option Nat), d)))) s1 =
                  .ok (mk id V L (He ++ [(some k1, cdef)] ++ cs.map (fun d => ((none : Option Nat), d)))) s1 := by
                unfold actIf
                rw [if_pos (by omega), hset]; rfl
              rw [bind_ok hact]
              simp only [Nat.add_sub_cancel] at f5
              rw [f5]
              simp [expHyb, hk1']


theorem main (hO : OpsMk reg o mk idOf dv dh acc) (hreg : RegOK reg) {A : Arena} {root : Nat}
    (hT : Typed acc A root) (hAC : ∀ p, ReflTransGen (LinkND A) root p → ¬ TransGen (LinkND A) p p) :
    ∀ fuel, Main reg o mk dv dh A root fuel := by
  intro fuel
  induction fuel with
  | zero => intro ptr deps st st' _ _ _ _ h; simp [ser] at h
  | succ fuel ih =>
    intro ptr deps st st' ha hroot hn hg h
    rw [ser] at h
    simp only [ha, Bool.false_eq_true, if_false] at h
    cases hA : A[ptr]? with
    | none => simp [hA] at h
    | some nd =>
      simp only [hA] at h
      cases hid : nd.md with
      | none => simp [hid] at h
      | some id =>
        simp only [hid] at h
        cases hm : reg[id]? with
        | none => simp [hm] at h
        | some m =>
          simp only [hm] at h
          split at h
          · simp at h
          · rename_i hsz
            have hmem : m ∈ reg := List.mem_of_getElem? hm
            have hid255 : id < 255 := by
              have := (List.getElem?_eq_some_iff.mp hm).1
              have := hreg.ids; omega
            cases href : st.refs.lookup ptr with
            | some r =>
              simp only [href, SR.done.injEq, true_and] at h
              subst h
              refine ⟨.raw 255 :: raws (le16 r), [], r, ⟨rfl, ?_, by simp, by simp, hn, hg⟩, by simp, href, ?_⟩
              · simp only [toks_le16, toks_raw, ← WS.toks_append]; rfl
              · intro h16 rest s dfuel hf hR hC
                obtain ⟨f, rfl⟩ : ∃ f, dfuel = f + 1 := ⟨dfuel - 1, by omega⟩
                have h16' : st.refs.length ≤ 65536 := h16
                have hr := hn.lt h16' href
                obtain ⟨s1, e1, r1, o1, t1⟩ := getN_rep (N := N) (bs := [255]) (by simp) (s := s)
                  (ts := raws (le16 r) ++ rest) (by simpa [raws] using hR)
                obtain ⟨s2, e2, r2, o2, t2⟩ := getN_rep (N := N) (bs := le16 r) (by simp [le16]) r1
                refine ⟨s2, ?_, r2, by rw [o2, o1]; exact hC, by rw [t2, t1]⟩
                rw [decNode]
                rw [show [(255 : UInt8)].length = 1 from rfl] at e1
                rw [bind_ok e1]
                rw [if_pos (show (([255] : List UInt8).headD 0).toNat = 255 from rfl), getRef]
                rw [show (le16 r).length = 2 from rfl] at e2
                rw [bind_ok e2, unle16_le16 (by omega), if_neg]
                rw [o2, o1, hC.len]; omega
            | none =>
              simp only [href] at h
              have hvl : nd.vars.length = m.vars.length := by
                exact Decidable.byContradiction fun hc => hsz (Or.inl hc)
              have hll : nd.lookups.length = m.lookups.length := by
                exact Decidable.byContradiction fun hc => hsz (Or.inr (Or.inl hc))
              have hhl : nd.hybrids.length = m.hybrids.length := by
                exact Decidable.byContradiction fun hc => hsz (Or.inr (Or.inr hc))
              -- the tokens written before the children
              generalize hlt : (if m.lookups.length ≠ 0 then [Tok.raw (lookupByte tLookup m.lookups.length)] else [])
                = lt at *
              have hws0 : (if m.lookups.length ≠ 0 then (serVars (st.ws.add [UInt8.ofNat id]) 0 nd.vars m.vars).addLookup
                    tLookup m.lookups.length else serVars (st.ws.add [UInt8.ofNat id]) 0 nd.vars m.vars) =
                  st.ws.toks (.raw (UInt8.ofNat id) :: varToks 0 nd.vars m.vars ++ lt) := by
                rw [serVars_toks, toks_raw, ← WS.toks_append]
                subst hlt
                split
                · rw [WS.addLookup, toks_raw, ← WS.toks_append]; simp
                · simp
              rw [hws0] at h
              generalize hst0 : ({ arena := A, ws := st.ws.toks (.raw (UInt8.ofNat id) ::
                varToks 0 nd.vars m.vars ++ lt), refs := st.refs } : St) = st0 at h
              cases hl : serLookups reg false (ser reg false fuel) ptr deps 0 m.lookups st0 with
              | ub => simp [hl] at h
              | nofuel => simp [hl] at h
              | done b st1 =>
                cases b with
                | false => simp [hl] at h
                | true =>
                  simp only [hl] at h
                  obtain ⟨ts1, new1, S1, hnn, hch1, D1⟩ := lookups_dec hO ih hT hroot hA hid hm deps m.lookups []
                    nd.lookups st0 st1 rfl hll (by simp) (by rw [← hst0]) (by rw [← hst0]; exact hn)
                    (by rw [← hst0]; exact hg) hl
                  cases hh : serHybrids reg false (ser reg false fuel) ptr deps 0 m.hybrids st1 with
                  | ub => simp [hh] at h
                  | nofuel => simp [hh] at h
                  | done b st2 =>
                    cases b with
                    | false => simp [hh] at h
                    | true =>
                      simp only [hh, SR.done.injEq, true_and] at h
                      obtain ⟨hdv, hdh⟩ := hO.dvlen id m hm
                      obtain ⟨ts2, new2, S2, hst2, hch2, D2⟩ := hybrids_dec (id := id) hO ih hroot hA
                        (hreg.hybrids m hmem) deps m.hybrids (dh id) [] nd.hybrids st1 st2 rfl hhl hdh (by simp)
                        S1.arena S1.num S1.good hh
                      have S12 := S1.trans S2 (T := TransGen (LinkND A) ptr) (fun q hq => hq) (fun q hq => hq)
                      have hrefs2 : st2.refs.lookup ptr = none := by
                        rw [S12.refs]
                        refine lookup_append_none ?_ (by rw [← hst0]; exact href)
                        intro q hq e
                        have := S12.below q hq
                        rw [e] at this
                        exact hAC ptr hroot this
                      have hch : ∀ c, LinkND A ptr c → ∃ k, st2.refs.lookup c = some k := by
                        rintro c ⟨nd', hnd', hc⟩
                        rw [hA] at hnd'; cases hnd'
                        rcases hc with hc | ⟨v, hc⟩
                        · obtain ⟨k, hk⟩ := hch1 c hc
                          exact ⟨k, S2.mono_lookup hk⟩
                        · exact hch2 c v hc
                      have hem : emplace st2.refs ptr = (ptr, st2.refs.length % 65536) :: st2.refs := by
                        simp [emplace, hrefs2]
                      rw [hem] at h
                      have hwf : WFAt reg A ptr nd id m := ⟨hA, hid, hm, hvl, hll, hhl, hnn⟩
                      have hr12 : st2.refs = (new2 ++ new1) ++ st.refs := by rw [S12.refs, ← hst0]
                      refine ⟨.raw (UInt8.ofNat id) :: varToks 0 nd.vars m.vars ++ lt ++ (ts1 ++ ts2) ++ [.nodeEnd],
                        (ptr, st2.refs.length % 65536) :: (new2 ++ new1), st2.refs.length % 65536, ?_, by simp, ?_, ?_⟩
                      · subst h
                        refine ⟨S2.arena, ?_, by rw [hr12]; simp, ?_, .cons S2.num hrefs2,
                          S2.good.push hrefs2 ⟨nd, id, m, hwf⟩ hch⟩
                        · simp only
                          rw [toks_end, S12.ws, ← hst0, ← WS.toks_append, ← WS.toks_append]
                          simp
                        · intro q hq
                          rcases List.mem_cons.mp hq with e | e
                          · rw [e]
                          · exact (S12.below q e).to_reflTransGen
                      · subst h; simp
                      · intro h16 rest s dfuel hf hR hC
                        have hlen' : st'.refs.length = st2.refs.length + 1 := by subst h; simp
                        have h16' : st2.refs.length < 65536 := by omega
                        obtain ⟨f, rfl⟩ : ∃ f, dfuel = f + 1 := ⟨dfuel - 1, by omega⟩
                        simp only [nraw_append, nraw_raw, List.cons_append, nraw_end, nraw_nil] at hf
                        simp only [List.append_assoc, List.cons_append, List.nil_append] at hR
                        -- node id
                        obtain ⟨s1, e1, r1, o1, t1⟩ := getN_rep (N := N) (bs := [UInt8.ofNat id]) (by simp) (s := s)
                          (by simpa [raws] using hR)
                        rw [show [UInt8.ofNat id].length = 1 from rfl] at e1
                        have hidb : (UInt8.ofNat id).toNat = id := by simp; omega
                        -- variables
                        have hstream1 := nraw_rep r1
                        simp only [nraw_append, nraw_end] at hstream1
                        have key : ∀ (sv : DSt N), (∃ l, getLk (N := N) 0 s1 = .ok l sv) →
                            sv.rs.stream = s1.rs.stream := by
                          rintro sv ⟨l, hl⟩
                          have := getLk_ok (N := N) 0 s1
                          unfold Ok at this; rw [hl] at this
                          exact this.1
                        obtain ⟨s2, old2, lf2, f1, r2, o2, t2, v2⟩ := varLoop_dec (id := id)
                          (L := m.lookups.map fun _ => none) (H := (dh id).map fun d => (none, d)) (nV := m.vars.length)
                          hO nd.vars m.vars (dv id) [] _ s1 0 (s1.rs.stream.length + 2) hdv hvl (by simp)
                          (hreg.vars m hmem) r1 (by simp only [List.length_nil]; omega)
                        simp only [List.nil_append] at v2
                        -- the decoder's body with the budget made explicit
                        have body : decNode reg o (f + 1) s =
                            ((getLk 0 >>= fun l => varLoop o m.vars.length (s1.rs.stream.length + 2) l
                                (mk id (dv id) (m.lookups.map fun _ => none) ((dh id).map fun d => (none, d)))) >>= fun r =>
                              lookupPart o m.lookups.length (decNode reg o f) r >>= fun r =>
                              (fun s => hybLoop o m.hybrids.length (decNode reg o f) (loopFuel s) r.1 r.2 s) >>= fun n =>
                              push n) s1 := by
                          rw [decNode, bind_ok e1]
                          have hh : ([UInt8.ofNat id].headD 0).toNat = id := hidb
                          rw [if_neg (by rw [hh]; omega)]
                          simp only [hh, hm, hO.create id m hm]
                          show M.bind _ _ s1 = M.bind (M.bind _ _) _ s1
                          simp only [M.bind]
                          cases hq : getLk (N := N) 0 s1 with
                          | ub => rfl
                          | nofuel => rfl
                          | null sv => rfl
                          | ok l sv =>
                            have hk := key sv ⟨l, hq⟩
                            simp only [Bind.bind, M.bind, loopFuel, hk]
                        -- after the children and hybrids
                        have fin : ∀ (s4 : DSt N) (old4 : Nat) (Lf : List (Option Nat)),
                            Lf = (nd.lookups.map fun l => l.bind fun q => st1.refs.lookup q) →
                            Rep s4.rs (ts2 ++ .nodeEnd :: rest) → Corr reg mk dv dh A st1.refs s4.out →
                            s4.rs.stream = s.rs.stream →
                            ∃ s', (getLk old4 >>= fun l => (fun s => hybLoop o m.hybrids.length (decNode reg o f)
                                (loopFuel s) l (mk id (expVars (dv id) m.vars nd.vars) Lf
                                  ((dh id).map fun d => (none, d))) s) >>= fun n => push n) s4 =
                                .ok (st2.refs.length % 65536) s' ∧
                              Rep s'.rs rest ∧ Corr reg mk dv dh A st'.refs s'.out ∧
                              s'.rs.stream = s.rs.stream := by
                          intro s4 old4 Lf hLf r4 c4 t4
                          have hstream4 := nraw_rep r4
                          simp only [nraw_append, nraw_end] at hstream4
                          obtain ⟨s5, old5, lf5, g1, r5, c5, t5, v5⟩ := D2 (by omega) (.nodeEnd :: rest) s4 f
                            (expVars (dv id) m.vars nd.vars) Lf [] old4 (s4.rs.stream.length + 2) rfl (by omega)
                            (by omega) r4 c4
                          simp only [List.nil_append] at v5
                          obtain ⟨s6, i6, e6, r6, o6, t6⟩ := getLk_rep_end r5 old5
                          have key4 : ∀ (sv : DSt N), (∃ l, getLk (N := N) old4 s4 = .ok l sv) →
                              sv.rs.stream = s4.rs.stream := by
                            rintro sv ⟨l, hl⟩
                            have := getLk_ok (N := N) old4 s4
                            unfold Ok at this; rw [hl] at this
                            exact this.1
                          rw [bind_ok e6] at v5
                          obtain ⟨lf, rfl⟩ : ∃ lf, lf5 = lf + 1 := ⟨lf5 - 1, by omega⟩
                          rw [hybLoop] at v5
                          simp only [if_true] at v5
                          have hLf' : Lf = nd.lookups.map fun l => l.bind fun q => st2.refs.lookup q := by
                            rw [hLf]
                            refine map_bind_congr (fun c hc => ?_)
                            obtain ⟨k, hk⟩ := hch1 c hc
                            show st1.refs.lookup c = st2.refs.lookup c
                            rw [hk, S2.mono_lookup hk]
                          have hnode : mk id (expVars (dv id) m.vars nd.vars) Lf
                              (expHyb (fun q => st2.refs.lookup q) (dh id) m.hybrids nd.hybrids) =
                              expNode reg mk dv dh (fun q => st2.refs.lookup q) nd := by
                            rw [expNode_of hwf, hLf']
                          rw [hnode] at v5
                          refine ⟨{ s6 with out := s6.out ++ [expNode reg mk dv dh (fun q => st2.refs.lookup q) nd] },
                            ?_, r6, ?_, by simp only; rw [t6, t5, t4]⟩
                          · have hlen6 : s6.out.length = st2.refs.length % 65536 := by
                              rw [o6, c5.len, Nat.mod_eq_of_lt h16']
                            show M.bind _ _ s4 = _
                            change M.bind _ _ s4 = _ at v5
                            simp only [M.bind] at v5 ⊢
                            cases hq : getLk (N := N) old4 s4 with
                            | ub => rw [hq] at v5; simp [M.pure] at v5
                            | nofuel => rw [hq] at v5; simp [M.pure] at v5
                            | null sv => rw [hq] at v5; simp [M.pure] at v5
                            | ok l sv =>
                              have hk := key4 sv ⟨l, hq⟩
                              rw [hq] at v5
                              simp only [M.pure] at v5
                              simp only [Bind.bind, M.bind, loopFuel, hk, v5, push, hlen6]
                          · simp only
                            rw [o6]
                            subst h
                            exact c5.push S2.good h16' hrefs2 hA hch
                        -- put together
                        have hC1 : Corr reg mk dv dh A st0.refs s2.out := by
                          rw [o2, o1, ← hst0]; exact hC
                        rw [body]
                        show ∃ s', M.bind _ _ s1 = _ ∧ _
                        simp only [M.bind]
                        rw [v2]
                        by_cases hz : m.lookups.length = 0
                        · -- no sources
                          have hlt0 : lt = [] := by rw [← hlt]; simp [hz]
                          have hm0 : m.lookups = [] := List.length_eq_zero_iff.mp hz
                          have hnl0 : nd.lookups = [] := List.length_eq_zero_iff.mp (by omega)
                          have hst1 : st1 = st0 := by
                            rw [hm0] at hl; simp [serLookups] at hl; exact hl.symm
                          have hts1 : nraw ts1 = 0 → True := fun _ => trivial
                          obtain ⟨s3, e3, r3, c3, t3⟩ := D1 (by have := S2.refs_le; omega) (ts2 ++ .nodeEnd :: rest) s2 f
                            (expVars (dv id) m.vars nd.vars) ((dh id).map fun d => (none, d)) [] rfl (by omega)
                            (by rw [hlt0] at r2; simpa using r2) hC1
                          rw [hm0] at e3
                          simp [childLoop, M.pure, hnl0] at e3
                          have hs32 : s3 = s2 := e3.symm
                          rw [hs32] at r3 c3
                          obtain ⟨s', q1, q2, q3, q4⟩ := fin s2 old2 [] (by simp [hnl0]) r3 c3 (by rw [t2, t1])
                          refine ⟨s', ?_, q2, q3, q4⟩
                          rw [← q1]
                          obtain ⟨lf, rfl⟩ : ∃ lf, lf2 = lf + 1 := ⟨lf2 - 1, by omega⟩
                          simp only [hm0, List.map_nil, List.length_nil]
                          simp only [Bind.bind, M.bind]
                          cases hq : getLk (N := N) old2 s2 with
                          | ub => rfl
                          | nofuel => rfl
                          | null sv => rfl
                          | ok l sv =>
                            -- the next entry is neither a variable nor a source list
                            have hty : l.type ≠ tVariable ∧ l.type ≠ tLookup := by
                              rcases hst2 with e | ⟨t, i, ts', ht, hi, e⟩
                              · rw [e] at r3
                                obtain ⟨_, _, e', _⟩ := getLk_rep_end r3 old2
                                rw [e'] at hq; cases hq; exact ⟨Nat.ne_of_beq_eq_false rfl, Nat.ne_of_beq_eq_false rfl⟩
                              · rw [e] at r3
                                rcases ht with rfl | rfl
                                · obtain ⟨_, e', _⟩ := getLk_rep (N := N) (t := tHybridLookup) (by decide) (by decide) hi r3 old2
                                  rw [e'] at hq; cases hq; exact ⟨Nat.ne_of_beq_eq_false rfl, Nat.ne_of_beq_eq_false rfl⟩
                                · obtain ⟨_, e', _⟩ := getLk_rep (N := N) (t := tHybridVariable) (by decide) (by decide) hi r3 old2
                                  rw [e'] at hq; cases hq; exact ⟨Nat.ne_of_beq_eq_false rfl, Nat.ne_of_beq_eq_false rfl⟩
                            simp only [varLoop, hty.1, if_false, M.pure, lookupPart, hty.2]
                        · -- with sources
                          have hlt1 : lt = [.raw (lookupByte tLookup m.lookups.length)] := by rw [← hlt]; simp [hz]
                          rw [hlt1] at r2
                          have h31 := hreg.lookups m hmem
                          obtain ⟨s3, e3, r3, o3, t3⟩ := getLk_rep (N := N) (t := tLookup) (by decide) (by decide)
                            (i := m.lookups.length) (by omega) (by simpa using r2) old2
                          obtain ⟨s4, e4, r4, c4, t4⟩ := D1 (by have := S2.refs_le; omega) (ts2 ++ .nodeEnd :: rest) s3 f
                            (expVars (dv id) m.vars nd.vars) ((dh id).map fun d => (none, d)) [] rfl (by omega)
                            r3 (by rw [o3]; exact hC1)
                          obtain ⟨s', q1, q2, q3, q4⟩ := fin s4 m.lookups.length _ rfl r4 c4 (by rw [t4, t3, t2, t1])
                          refine ⟨s', ?_, q2, q3, q4⟩
                          rw [← q1]
                          obtain ⟨lf, rfl⟩ : ∃ lf, lf2 = lf + 1 := ⟨lf2 - 1, by omega⟩
                          rw [bind_ok e3]
                          have hrep : (m.lookups.map fun _ => (none : Option Nat)) =
                              List.replicate m.lookups.length none := by simp [List.map_const']
                          rw [varLoop]
                          simp only [show ¬ (tLookup = tVariable) by decide, if_false, M.pure, lookupPart, if_true]
                          rw [hrep]
                          change childLoop o m.lookups.length (decNode reg o f) m.lookups.length 0
                            (mk id (expVars (dv id) m.vars nd.vars) (List.replicate m.lookups.length none)
                              ((dh id).map fun d => (none, d))) s3 = .ok (mk id (expVars (dv id) m.vars nd.vars)
                              (nd.lookups.map fun l => l.bind fun q => st1.refs.lookup q)
                              ((dh id).map fun d => (none, d))) s4 at e4
                          simp only [Bind.bind, M.bind, e4, Nat.sub_self, fillLoop, M.pure]
                          cases hq : getLk (N := N) m.lookups.length s4 <;> rfl

end FastNoise.RT
