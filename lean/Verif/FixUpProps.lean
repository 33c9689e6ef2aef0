import Verif.FixUp
import Verif.FixSpec
import Verif.RoundTripProps

/-! Property C10 (fixUp) and the fixUp case of C03. -/
namespace FastNoise.RT
open FastNoise.Stream FastNoise.Ser FastNoise.Deser FastNoise.Spec FastNoise.Registry
open Relation

theorem Sub.onlyRemoved {J K} {J' : Nat → Nat → Nat → Prop} {K' : Nat → Nat → Prop} {A0 A : Arena} (h : Sub J K A0 A)
    (hJ : ∀ p i c n, A0[p]? = some n → n.lookups[i]? = some (some c) → J p i c → J' p i c)
    (hK : ∀ p c, LinkND A0 p c → K p c → K' p c) : OnlyRemoved J' K' A0 A := by
  refine ⟨h.len, fun p n n' h0 hn => ?_⟩
  have hs := h.node p n n' h0 hn
  refine ⟨hs.md, hs.vars, hs.llen, hs.hlen, ?_, ?_⟩
  · intro i l l' hl hl'
    refine (hs.lk i l l' hl hl').imp id ?_
    rintro ⟨e, c, rfl, j⟩
    exact ⟨e, c, rfl, hJ p i c n h0 hl j⟩
  · intro i x x' hx hx'
    obtain ⟨e1, e2⟩ := hs.hy i x x' hx hx'
    obtain ⟨l, v⟩ := x
    obtain ⟨l', v'⟩ := x'
    simp only at e1 e2
    subst e1
    rcases e2 with e2 | ⟨e2, c, e3, k⟩
    · exact Or.inl (by rw [e2])
    · subst e2; subst e3
      exact Or.inr ⟨rfl, c, rfl, hK p c (linkND_hybrid h0 (List.mem_of_getElem? hx)) k⟩

/-- One call with fixUp: failure, or the state of the same call without fixUp on the edited graph. -/
theorem fix_core {reg : Reg} {A : Arena} {root : Nat} (hmeta : HasMetadata reg A root) :
    ∃ b st, serStream reg true (A.length + 1) A root = .done b st ∧ SubX root reg A st.arena ∧ (b = true →
      SubC root A st.arena ∧ AcyclicFrom st.arena root ∧
        serStream reg false (st.arena.length + 1) st.arena root = .done true st) := by
  obtain ⟨b, st, e, hx, hb⟩ := fixMain (root := root) hmeta (A.length + 1) root []
    { arena := A, ws := { stream := [], stack := 0 }, refs := [] } .refl
    ⟨.refl _ _ _, .nil, by simp⟩ (by simp) List.nodup_nil (by simp) (by simp)
  cases b with
  | false => exact ⟨false, st, by simp only [serStream, e], hx, by simp⟩
  | true =>
    obtain ⟨h1, h2, h3, h4, h5, ⟨k, hk⟩, h7⟩ := hb rfl
    refine ⟨true, { st with ws := st.ws.flush }, by simp only [serStream, e], hx, fun _ => ⟨h1, ?_, ?_⟩⟩
    · intro p hp
      have : ∃ k', st.refs.lookup p = some k' := by
        induction hp with
        | refl => exact ⟨k, hk⟩
        | tail _ hl ih =>
          obtain ⟨k', hk'⟩ := ih
          exact (h2.closed hk' _ hl).2
      obtain ⟨k', hk'⟩ := this
      exact h2.trans_mem hk'
    · have := h7 st.arena [] (fun p k _ => rfl)
      simp only [serStream, h1.len]
      rw [this]

/-! ## C10 -/

/-- **C10** (partial) With fixUp, serialising any node-data graph whose reached nodes have metadata, however
cyclic, terminates without undefined behaviour.  Afterwards the nodes are the same except that some links
were removed, each of which was on a cycle or led to a source of the wrong kind for its slot.  If text is
returned, only links on cycles were removed, no cycle is reached from the root any more, and the text is
that of the edited graph.  Missing from the full property: when serialising fails (empty text) cycles can
remain, see `C10_failure_keeps_cycle`; null metadata in a child is dereferenced, see `C10_null_metadata_ub`. -/
theorem C10_fixup_partial (reg : Reg) (hreg : RegOK reg) (A : Arena) (root : Nat) (hmeta : HasMetadata reg A root)
    (hsz : A.length < 2 ^ 54) :
    ∃ text A', serialise reg true A root = .text text A' ∧
      OnlyRemoved (fun p i c => OnCycle A root p c ∨ WrongKind reg A root p i c) (OnCycle A root) A A' ∧
      (text ≠ [] → OnlyRemoved (fun p _ c => OnCycle A root p c) (OnCycle A root) A A' ∧
        AcyclicFrom A' root ∧ (∀ p, Reach A' root p → Complete reg A' p) ∧
        serialise reg false A' root = .text text A') := by
  obtain ⟨b, st, e, hx, hb⟩ := fix_core hmeta
  have hX : OnlyRemoved (fun p i c => OnCycle A root p c ∨ WrongKind reg A root p i c) (OnCycle A root) A st.arena := by
    refine Sub.onlyRemoved hx ?_ ?_
    · rintro p i c n hA hl (h | ⟨h1, n', id, m, k, nc, cid, mc, a1, a2, a3, a4, a5, a6, a7, a8⟩)
      · exact Or.inl ⟨h.1, linkND_lookup hA (List.mem_of_getElem? hl), h.2⟩
      · refine Or.inr ⟨h1, n', id, m, nc, cid, mc, a1, a2, a3, ?_, ?_, a5, a6, a7, ?_⟩
        · cases k with
          | any => simp [accepts] at a8
          | warp => exact a4
        · rw [a1] at hA; cases hA; exact hl
        · cases k with
          | any => simp [accepts] at a8
          | warp => exact a8
    · rintro p c hl h; exact ⟨h.1, hl, h.2⟩
  cases b with
  | false =>
    exact ⟨[], st.arena, by unfold serialise; rw [e]; rfl, hX, fun h => absurd rfl h⟩
  | true =>
    obtain ⟨h1, h2, h3⟩ := hb rfl
    have hp : PointersValid reg st.arena root := by
      intro p hp
      have hp0 : Reach A root p := Relation.ReflTransGen.mono (fun a b h => h1.link h) _ _ hp
      obtain ⟨nd, id, m, a1, a2, a3⟩ := hmeta p hp0
      obtain ⟨n, hn, hs⟩ := h1.get a1
      refine ⟨n, hn, fun id' hid' => ?_⟩
      rw [hs.md, a2] at hid'; cases hid'; exact ⟨m, a3⟩
    obtain ⟨text, t1, t2⟩ := C09_serialise_total_iff reg hreg st.arena root hp h2 (by rw [h1.len]; exact hsz)
    have t0 : serialise reg true A root = serialise reg false st.arena root := by
      unfold serialise; rw [e, h3]
    refine ⟨text, st.arena, t0.trans t1, hX, fun hne => ⟨?_, h2, t2.mp hne, t1⟩⟩
    exact Sub.onlyRemoved h1 (fun p i c n hA hl h => ⟨h.1, linkND_lookup hA (List.mem_of_getElem? hl), h.2⟩)
      (fun p c hl h => ⟨h.1, hl, h.2⟩)

theorem fixEqLookups {reg : Reg} {A : Arena} {ptr : Nat} {n : NodeData} {deps deps' : List Nat}
    {rec rec' : Nat → List Nat → St → SR} (hn : A[ptr]? = some n) (ks : List Kind) :
    ∀ (i : Nat) (st : St), st.arena = A →
    (∀ c, some c ∈ n.lookups → ∀ st, st.arena = A → rec c deps st = rec' c deps' st ∧
      ∀ b st', rec c deps st = .done b st' → st'.arena = A) →
    (∀ (j : Nat) k c, ks[j]? = some k → n.lookups[i + j]? = some (some c) → testSource reg A k c = some true) →
    serLookups reg true rec ptr deps i ks st = serLookups reg false rec' ptr deps' i ks st ∧
      ∀ b st', serLookups reg true rec ptr deps i ks st = .done b st' → st'.arena = A := by
  induction ks with
  | nil =>
    intro i st ha _ _
    simp only [serLookups, true_and]
    rintro b st' ⟨⟩; exact ha
  | cons k ks ih =>
    intro i st ha hrec htest
    simp only [serLookups, ha, hn]
    cases hx : n.lookups[i]? with
    | none => simp
    | some x =>
      cases x with
      | none => simp only [true_and]; rintro b st' ⟨⟩; exact ha
      | some c =>
        simp only [if_true, Bool.false_eq_true, if_false, htest 0 k c (by simp) (by simpa using hx)]
        obtain ⟨h1, h2⟩ := hrec c (List.mem_of_getElem? hx) st ha
        rw [← h1]
        cases hr : rec c deps st with
        | ub => simp
        | nofuel => simp
        | done b st1 =>
          cases b with
          | false => simp only [true_and]; rintro b st' ⟨⟩; exact h2 _ _ hr
          | true =>
            refine ih (i + 1) st1 (h2 _ _ hr) hrec ?_
            intro j k c hj hl
            exact htest (j + 1) k c (by simpa using hj) (by rw [← hl]; congr 1; omega)

theorem fixEqHybrids {reg : Reg} {A : Arena} {ptr : Nat} {n : NodeData} {deps deps' : List Nat}
    {rec rec' : Nat → List Nat → St → SR} (hn : A[ptr]? = some n) (ds : List UInt32) :
    ∀ (i : Nat) (st : St), st.arena = A →
    (∀ c v, (some c, v) ∈ n.hybrids → ∀ st, st.arena = A → rec c deps st = rec' c deps' st ∧
      ∀ b st', rec c deps st = .done b st' → st'.arena = A) →
    (∀ c v, (some c, v) ∈ n.hybrids → testSource reg A .any c = some true) →
    serHybrids reg true rec ptr deps i ds st = serHybrids reg false rec' ptr deps' i ds st ∧
      ∀ b st', serHybrids reg true rec ptr deps i ds st = .done b st' → st'.arena = A := by
  induction ds with
  | nil =>
    intro i st ha _ _
    simp only [serHybrids, true_and]
    rintro b st' ⟨⟩; exact ha
  | cons d ds ih =>
    intro i st ha hrec htest
    simp only [serHybrids, ha, hn]
    cases hx : n.hybrids[i]? with
    | none => simp
    | some x =>
      obtain ⟨l, v⟩ := x
      cases l with
      | none => exact ih (i + 1) _ rfl hrec htest
      | some c =>
        simp only [if_true, Bool.false_eq_true, if_false, htest c v (List.mem_of_getElem? hx)]
        obtain ⟨h1, h2⟩ := hrec c v (List.mem_of_getElem? hx)
          { arena := A, ws := st.ws.addLookup tHybridLookup i, refs := st.refs } rfl
        rw [← h1]
        cases hr : rec c deps { arena := A, ws := st.ws.addLookup tHybridLookup i, refs := st.refs } with
        | ub => simp
        | nofuel => simp
        | done b st1 =>
          cases b with
          | false => simp only [true_and]; rintro b st' ⟨⟩; exact h2 _ _ hr
          | true => exact ih (i + 1) st1 (h2 _ _ hr) hrec htest

theorem set_self {A : Arena} {p : Nat} {n : NodeData} (h : A[p]? = some n) : A.set p n = A := by
  apply List.ext_getElem?
  intro j
  by_cases e : p = j
  · subst e
    obtain ⟨h, e⟩ := List.getElem?_eq_some_iff.mp h
    simp [h, e]
  · rw [List.getElem?_set_ne e]

theorem fix_eq {reg : Reg} {A : Arena} {root : Nat} (hmeta : HasMetadata reg A root) (hac : AcyclicFrom A root)
    (hfit : SourcesFit reg A root) : ∀ (fuel ptr : Nat) (deps deps' : List Nat) (st : St), st.arena = A →
      Reach A root ptr → (∀ d ∈ deps, TransGen (LinkND A) d ptr) →
      ser reg true fuel ptr deps st = ser reg false fuel ptr deps' st ∧
        ∀ b st', ser reg true fuel ptr deps st = .done b st' → st'.arena = A := by
  intro fuel
  induction fuel with
  | zero => intro ptr deps deps' st _ _ _; simp [ser]
  | succ fuel ih =>
    intro ptr deps deps' st ha hr hd
    obtain ⟨n, id, m, hA, hid, hm⟩ := hmeta ptr hr
    rw [ser, ser]
    simp only [ha, hA, hid, hm]
    split
    · simp only [true_and]; rintro b st' ⟨⟩; exact ha
    · have hcut : cutLoops (ptr :: deps) n = n := by
        refine cut_id (fun c hc hmem => ?_)
        have hl : LinkND A ptr c := (linkND_iff hA).mpr hc
        rcases List.mem_cons.mp hmem with e | e
        · subst e; exact hac _ hr (.single hl)
        · exact hac c (hr.tail hl) ((hd c e).tail hl)
      simp only [if_true, Bool.false_eq_true, if_false, hcut, set_self hA]
      cases href : st.refs.lookup ptr with
      | some r => simp only [ha, true_and]; rintro b st' ⟨⟩; rfl
      | none =>
        simp only
        have hrec : ∀ c, LinkND A ptr c → ∀ st : St, st.arena = A →
            ser reg true fuel c (ptr :: deps) st = ser reg false fuel c deps' st ∧
            ∀ b st', ser reg true fuel c (ptr :: deps) st = .done b st' → st'.arena = A := by
          intro c hc st hs
          refine ih c (ptr :: deps) deps' st hs (hr.tail hc) ?_
          intro d hd'
          rcases List.mem_cons.mp hd' with e | e
          · subst e; exact .single hc
          · exact (hd d e).tail hc
        have htest : ∀ k c, LinkND A ptr c → (∀ mc cid nc, A[c]? = some nc → nc.md = some cid → reg[cid]? = some mc →
            accepts k mc = true) → testSource reg A k c = some true := by
          intro k c hc h
          obtain ⟨nc, cid, mc, c1, c2, c3⟩ := hmeta c (hr.tail hc)
          rw [testSource_eq (Sub.refl (fun _ _ _ => True) (fun _ _ => True) A) c1 c2 c3, h mc cid nc c1 c2 c3]
        obtain ⟨e1, e2⟩ := fixEqLookups (reg := reg) (rec := ser reg true fuel) (rec' := ser reg false fuel)
          (deps := ptr :: deps) (deps' := deps') hA m.lookups 0
          { arena := A, ws := (if m.lookups.length ≠ 0 then (serVars (st.ws.add [UInt8.ofNat id]) 0 n.vars m.vars).addLookup
              tLookup m.lookups.length else serVars (st.ws.add [UInt8.ofNat id]) 0 n.vars m.vars), refs := st.refs } rfl
          (fun c hc => hrec c (linkND_lookup hA hc)) (by
            intro j k c hk hl
            refine htest k c (linkND_lookup hA (List.mem_of_getElem? hl)) (fun mc cid nc c1 c2 c3 => ?_)
            cases k with
            | any => rfl
            | warp => exact hfit ptr j c n nc id cid m .warp mc hr hA hid hm hk (by simpa using hl) c1 c2 c3 rfl)
        rw [ha, ← e1]
        cases hs1 : serLookups reg true (ser reg true fuel) ptr (ptr :: deps) 0 m.lookups
          { arena := A, ws := (if m.lookups.length ≠ 0 then (serVars (st.ws.add [UInt8.ofNat id]) 0 n.vars m.vars).addLookup
              tLookup m.lookups.length else serVars (st.ws.add [UInt8.ofNat id]) 0 n.vars m.vars), refs := st.refs } with
        | ub => simp
        | nofuel => simp
        | done b st1 =>
          have ha1 := e2 _ _ hs1
          cases b with
          | false => simp only [true_and]; rintro b st' ⟨⟩; exact ha1
          | true =>
            simp only
            obtain ⟨f1, f2⟩ := fixEqHybrids (reg := reg) (rec := ser reg true fuel) (rec' := ser reg false fuel)
              (deps := ptr :: deps) (deps' := deps') hA m.hybrids 0 st1 ha1
              (fun c v hc => hrec c (linkND_hybrid hA hc))
              (fun c v hc => htest .any c (linkND_hybrid hA hc) (fun _ _ _ _ _ _ => rfl))
            rw [← f1]
            cases hs2 : serHybrids reg true (ser reg true fuel) ptr (ptr :: deps) 0 m.hybrids st1 with
            | ub => simp
            | nofuel => simp
            | done b st2 =>
              have ha2 := f2 _ _ hs2
              cases b with
              | false => simp only [true_and]; rintro b st' ⟨⟩; exact ha2
              | true => simp only [true_and]; rintro b st' ⟨⟩; exact ha2

/-- **C10** An acyclic graph whose sources fit their slots is left untouched by fixUp, and its text is the
same as without fixUp. -/
theorem C10_fixup_harmless (reg : Reg) (hreg : RegOK reg) (A : Arena) (root : Nat) (hmeta : HasMetadata reg A root)
    (hsz : A.length < 2 ^ 54) (hac : AcyclicFrom A root) (hfit : SourcesFit reg A root) :
    ∃ text, serialise reg true A root = .text text A ∧ serialise reg false A root = .text text A := by
  have hp : PointersValid reg A root := by
    intro p hp
    obtain ⟨nd, id, m, a1, a2, a3⟩ := hmeta p hp
    exact ⟨nd, a1, fun id' hid' => by rw [a2] at hid'; cases hid'; exact ⟨m, a3⟩⟩
  obtain ⟨t, t1, _⟩ := C09_serialise_total_iff reg hreg A root hp hac hsz
  have e := (fix_eq hmeta hac hfit (A.length + 1) root [] []
    { arena := A, ws := { stream := [], stack := 0 }, refs := [] } rfl .refl (by simp)).1
  refine ⟨t, ?_, t1⟩
  rw [← t1]
  unfold serialise serStream
  rw [e]

/-- Add( Add( root ), 0 ): a two node cycle through a source, and a self loop through a hybrid. -/
def exLoop : Arena := [⟨some 21, [], [some 1], [(some 0, f0)]⟩, ⟨some 21, [], [some 2], [(some 0, f1)]⟩,
  ⟨some 0, [f1], [], []⟩]

theorem exLoop_meta : HasMetadata Registry.reg exLoop 0 := by
  have key : ∀ p, Reach exLoop 0 p → p < 3 := by
    intro p hp
    induction hp with
    | refl => decide
    | tail _ hl ih =>
      obtain ⟨n, hn, hl⟩ := hl
      rename_i b c _
      match b, hn with
      | 0, hn => simp [exLoop] at hn; subst hn; simp at hl; omega
      | 1, hn => simp [exLoop] at hn; subst hn; simp at hl; omega
      | 2, hn => simp [exLoop] at hn; subst hn; simp at hl
      | p + 3, hn => simp [exLoop] at hn
  intro p hp
  have h0 : ∃ m, Registry.reg[0]? = some m := Option.isSome_iff_exists.mp (by decide +kernel)
  have h21 : ∃ m, Registry.reg[21]? = some m := Option.isSome_iff_exists.mp (by decide +kernel)
  match p, key p hp with
  | 0, _ => exact ⟨_, 21, h21.choose, rfl, rfl, h21.choose_spec⟩
  | 1, _ => exact ⟨_, 21, h21.choose, rfl, rfl, h21.choose_spec⟩
  | 2, _ => exact ⟨_, 0, h0.choose, rfl, rfl, h0.choose_spec⟩

/-- Hypotheses of `C10_fixup_partial` met by a cyclic graph, for which text is returned and the two links
on cycles are cut. -/
example : HasMetadata Registry.reg exLoop 0 ∧ exLoop.length < 2 ^ 54 ∧
    ∃ t ts, serialise Registry.reg true exLoop 0 = .text (t :: ts)
      [⟨some 21, [], [some 1], [(none, f0)]⟩, ⟨some 21, [], [some 2], [(none, f1)]⟩, ⟨some 0, [f1], [], []⟩] :=
  ⟨exLoop_meta, by decide, by
    have h : ∃ text, serialise Registry.reg true exLoop 0 = .text text
      [⟨some 21, [], [some 1], [(none, f0)]⟩, ⟨some 21, [], [some 2], [(none, f1)]⟩, ⟨some 0, [f1], [], []⟩] ∧ text ≠ [] := by
      have : (match serialise Registry.reg true exLoop 0 with
        | .text t A => decide (t ≠ [] ∧ A = [⟨some 21, [], [some 1], [(none, f0)]⟩, ⟨some 21, [], [some 2], [(none, f1)]⟩, ⟨some 0, [f1], [], []⟩])
        | _ => false) = true := by decide +kernel
      split at this
      · rename_i t A e
        simp at this
        exact ⟨t, by rw [e, this.2], this.1⟩
      · simp at this
    obtain ⟨text, h1, h2⟩ := h
    cases text with
    | nil => exact absurd rfl h2
    | cons t ts => exact ⟨t, ts, h1⟩⟩

/-- **C10** is violated when serialising fails: a missing source is found first, the function returns before
visiting the rest, and a cycle reached from the root remains (root -> 2 -> 2). -/
theorem C10_failure_keeps_cycle :
    serialise Registry.reg true
        [⟨some 21, [], [some 1], [(some 2, f0)]⟩, ⟨some 21, [], [none], [(none, f0)]⟩, ⟨some 21, [], [some 2], [(none, f0)]⟩] 0 =
      .text [] [⟨some 21, [], [some 1], [(some 2, f0)]⟩, ⟨some 21, [], [none], [(none, f0)]⟩, ⟨some 21, [], [some 2], [(none, f0)]⟩] ∧
    ¬ AcyclicFrom [⟨some 21, [], [some 1], [(some 2, f0)]⟩, ⟨some 21, [], [none], [(none, f0)]⟩,
        ⟨some 21, [], [some 2], [(none, f0)]⟩] 0 := by
  refine ⟨by decide +kernel, fun h => h 2 (.single ⟨_, rfl, Or.inr ⟨f0, by simp⟩⟩) (.single ⟨_, rfl, Or.inl (by simp)⟩)⟩

/-- A child with a null metadata pointer is dereferenced under fixUp (Metadata.cpp:236), although the check at
the start of the recursive call would have handled it; without fixUp serialising fails cleanly. -/
theorem C10_null_metadata_ub :
    serialise Registry.reg true [⟨some 21, [], [some 1], [(none, f0)]⟩, ⟨none, [], [], []⟩] 0 = .ub ∧
    serialise Registry.reg false [⟨some 21, [], [some 1], [(none, f0)]⟩, ⟨none, [], [], []⟩] 0 =
      .text [] [⟨some 21, [], [some 1], [(none, f0)]⟩, ⟨none, [], [], []⟩] := by decide +kernel

/-- Hypotheses of `C10_fixup_harmless` met by the shared graph. -/
example : HasMetadata Registry.reg exGood 2 := by
  intro p hp
  obtain ⟨nd, id, m, a, b, c, _⟩ := exGood_complete p hp
  exact ⟨nd, id, m, a, b, c⟩

/-! ## C03 with fixUp -/

/-- **C03** (fixUp on) Non-empty text decodes, as base64, to exactly the byte stream the serialiser built. -/
theorem C03_fixup (reg : Reg) (hreg : RegOK reg) (A A' : Arena) (root : Nat) (hmeta : HasMetadata reg A root)
    (hsz : A.length < 2 ^ 54) (text : List UInt8) (h : serialise reg true A root = .text text A') (hne : text ≠ []) :
    ∃ st, serStream reg true (A.length + 1) A root = .done true st ∧ Base64.decode text = .done st.ws.stream := by
  obtain ⟨b, st, e, hx, hb⟩ := fix_core hmeta
  cases b with
  | false =>
    have : serialise reg true A root = .text [] st.arena := by unfold serialise; rw [e]; rfl
    rw [this] at h; cases h; exact absurd rfl hne
  | true =>
    obtain ⟨h1, h2, h3⟩ := hb rfl
    have hp : PointersValid reg st.arena root := by
      intro p hp
      have hp0 : Reach A root p := Relation.ReflTransGen.mono (fun a b h => h1.link h) _ _ hp
      obtain ⟨nd, id, m, a1, a2, a3⟩ := hmeta p hp0
      obtain ⟨n, hn, hs⟩ := h1.get a1
      refine ⟨n, hn, fun id' hid' => ?_⟩
      rw [hs.md, a2] at hid'; cases hid'; exact ⟨m, a3⟩
    have t0 : serialise reg true A root = serialise reg false st.arena root := by
      unfold serialise; rw [e, h3]
    rw [t0] at h
    obtain ⟨st', s1, s2⟩ := C03_text_decodes reg hreg st.arena A' root hp h2 (by rw [h1.len]; exact hsz) text h hne
    rw [h3] at s1
    cases s1
    exact ⟨st, e, s2⟩

end FastNoise.RT
