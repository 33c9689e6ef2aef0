import Verif.EditorViewLemmas
/-! # What is shown: one edit (lemmas for C55) -/
namespace FastNoise.Editor
open FastNoise.Ser FastNoise.Stream FastNoise.Deser FastNoise.Spec FastNoise.RT FastNoise.Registry
open Relation

variable {E : Env}

/-- Everything shown before is right again after the preview of the changed node `p`. -/
theorem edit_view (hE : EnvOK E) {L order : List Nat} {A0 A' A1 : Arena} {p fuel : Nat} {v : View} {r : Arena × View} (hR : Ready E L A1) (hp : p ∈ L) (hsub : ∀ q ∈ order, q ∈ L)
    (hall : ∀ q ∈ L, q = p ∨ q ∈ order) (hoff : ∀ q, q ≠ p → A0[q]? = A1[q]?) (hlen : A0.length < 2 ^ 54) (hcur : ∀ q ∈ L, q ≠ p → v.text q = tx E.reg A0 q)
    (hsync : ∀ q ∈ order, v.selected = some q → v.text q ≠ [] → InUse E.detached (v.text q) v)
    (hren : renew E p (A', v) = .ok (A1, v.setText p (tx E.reg A1 p))) (h : previewV E true order fuel p (A', v) = .ok r) :
    r.1 = A1 ∧ r.2.selected = v.selected ∧ (∀ q ∈ L, r.2.text q = tx E.reg A1 q) ∧ (∀ q ∈ order, r.2.selected = some q → r.2.text q ≠ [] → InUse E.detached (r.2.text q) r.2) := by
  obtain ⟨a1, a2, a3⟩ := preview_after (U := fun q => q ∈ L) (τ := tx E.reg A1) (order := order) (fun q hq => hR.stable hE hq) (fun q c hq _ _ => hsub q hq) hp hren h
  have hpath : ∀ q, q ∈ L → Reach A1 q p → ReflTransGen (OLink order A1) q p := by
    intro q hq hr
    revert hq
    induction hr using ReflTransGen.head_induction_on with
    | refl => exact fun _ => .refl
    | @head a c hl _ ih =>
      intro hq
      by_cases e : a = p
      · subst e; exact .refl
      · rcases hall a hq with e' | e'
        · exact absurd e' e
        · exact (ih (hR.closed a hq c hl)).head ⟨e', hl⟩
  have hold : ∀ q ∈ L, ¬ Reach A1 q p → v.text q = tx E.reg A1 q := by
    intro q hq hn
    have hne : q ≠ p := fun e => hn (e ▸ .refl)
    rw [hcur q hq hne]
    exact (hR.agree hE hq hlen fun r hr => hoff r (fun e => hn (e ▸ hr))).1
  have htx : ∀ q ∈ L, r.2.text q = tx E.reg A1 q := by
    intro q hq
    by_cases hr : Reach A1 q p
    · exact (a3 q (hpath q hq hr)).1
    · rcases a2.txt q with e | e
      · rw [e]; exact hold q hq hr
      · exact e.2
  refine ⟨a1, a2.sel, htx, fun q hq hs hne => ?_⟩
  have hqL := hsub q hq
  rw [htx q hqL] at hne ⊢
  by_cases hr : Reach A1 q p
  · exact (a3 q (hpath q hqL hr)).2 rfl hs hq hne
  · rcases a2.use with e | ⟨s, b1, b2, b3, b4, b5⟩
    · rw [a2.sel] at hs
      have := hold q hqL hr
      rw [← this] at hne ⊢
      exact (hsync q hq hs hne).same e
    · rw [a2.sel, b1] at hs; cases hs; exact b5

theorem tx_none {reg : Reg} {A : Arena} {p : Nat} {nd : NodeData} {id : Nat} {m : Meta} (hn : A[p]? = some nd) (hid : nd.md = some id) (hm : reg[id]? = some m) {ks : List Kind}
    (hk : m.lookups = Kind.warp :: ks) (hl : nd.lookups[0]? = some none) : tx reg A p = [] := by
  have h : serialise reg false A p = .text [] A := by
    unfold serialise serStream
    rw [ser, hn]
    simp only [hid, hm, Bool.false_eq_true, if_false]
    by_cases hlen : nd.vars.length ≠ m.vars.length ∨ nd.lookups.length ≠ m.lookups.length ∨ nd.hybrids.length ≠ m.hybrids.length
    · rw [if_pos hlen]; rfl
    · rw [if_neg hlen, hk]
      simp only [List.lookup_nil, serLookups, hn, hl, finishWith]
  unfold tx; rw [h]

theorem cutLoops_id {deps : List Nat} {nd : NodeData} (h : ∀ c, NLink nd c → c ∉ deps) : cutLoops deps nd = nd := by
  have h1 : (cutLoops deps nd).lookups = nd.lookups := by
    show List.map _ nd.lookups = nd.lookups
    conv_rhs => rw [← List.map_id nd.lookups]
    apply List.map_congr_left
    intro l hl
    cases l with
    | none => rfl
    | some c => simp only [id]; rw [if_neg (h c (Or.inl hl))]
  have h2 : (cutLoops deps nd).hybrids = nd.hybrids := by
    show List.map _ nd.hybrids = nd.hybrids
    conv_rhs => rw [← List.map_id nd.hybrids]
    apply List.map_congr_left
    intro l hl
    obtain ⟨l, w⟩ := l
    cases l with
    | none => rfl
    | some c => simp only [id]; rw [if_neg (h c (Or.inr ⟨w, hl⟩))]
  have h3 : (cutLoops deps nd).md = nd.md := rfl
  have h4 : (cutLoops deps nd).vars = nd.vars := rfl
  cases hh : cutLoops deps nd
  rw [hh] at h1 h2 h3 h4
  simp only at h1 h2 h3 h4
  subst h1 h2 h3 h4
  rfl

/-- `nd` with its first source removed. -/
def unplug (nd : NodeData) : NodeData := { nd with lookups := nd.lookups.set 0 none }

/-- The fix-up of a node whose domain warp slot holds something else: the slot is emptied. -/
theorem renew_unplug {A : Arena} {p c : Nat} {nd nc : NodeData} {id cid : Nat} {m mc : Meta} {ks : List Kind} (hn : A[p]? = some nd) (hid : nd.md = some id) (hm : E.reg[id]? = some m)
    (hsh : nd.vars.length = m.vars.length ∧ nd.lookups.length = m.lookups.length ∧ nd.hybrids.length = m.hybrids.length) (hself : ∀ c, NLink nd c → c ≠ p)
    (hk : m.lookups = Kind.warp :: ks) (hl : nd.lookups[0]? = some (some c)) (hc : A[c]? = some nc) (hcid : nc.md = some cid) (hmc : E.reg[cid]? = some mc) (hw : mc.isWarp = false) (v : View) :
    renew E p (A, v) = .ok (A.set p (unplug nd), v.setText p []) := by
  have hlt := (List.getElem?_eq_some_iff.mp hn).1
  have hset : A.set p nd = A := by
    apply List.ext_getElem?
    intro i
    by_cases e : p = i
    · subst e; rw [List.getElem?_set_self hlt, hn]
    · rw [List.getElem?_set_ne e]
  have h : serialise E.reg true A p = .text [] (A.set p (unplug nd)) := by
    unfold serialise serStream
    rw [ser, hn]
    simp only [hid, hm, if_true]
    rw [if_neg (by rw [hsh.1, hsh.2.1, hsh.2.2]; simp), cutLoops_id (by intro x hx; simpa using hself x hx), hset]
    have ht : testSource E.reg A Kind.warp c = some false := by
      unfold testSource
      rw [hc]
      simp only [bind, Option.bind, hcid, hmc, pure, accepts, hw]
    simp only [List.lookup_nil]
    rw [hk]
    simp only [serLookups, hn, hl, if_true, ht, finishWith]
    rfl
  unfold renew
  rw [h]
  simp only [builds_nil, Out.bind]
  rfl

/-- What the links of a changed node may be. -/
theorem edit_ready (hE : EnvOK E) {L : List Nat} {A : Arena} {p : Nat} {nd' : NodeData} (hlt : p < A.length) (hp : p ∈ L) (hlive : ∀ q ∈ L, q ≠ p → ∃ nd, A[q]? = some nd ∧ Shaped E.reg nd)
    (hclosed : ∀ q ∈ L, q ≠ p → ∀ c, LinkND A q c → c ∈ L) (hs : Shaped E.reg nd') (hl : ∀ c, NLink nd' c → c ∈ L) (hloops : NoLoops L (A.set p nd'))
    (hfit : ∀ q ∈ L, q ≠ p → Fits E.reg (A.set p nd') q) (hsz : A.length < 2 ^ 54) (hfew : L.length ≤ 65536) :
    ∃ nd'', (nd'' = nd' ∨ nd'' = unplug nd') ∧ Ready E L (A.set p nd'') ∧ ∀ v : View, renew E p (A.set p nd', v) = .ok (A.set p nd'', v.setText p (tx E.reg (A.set p nd'') p)) := by
  have mk : ∀ nd'', Shaped E.reg nd'' → (∀ c, NLink nd'' c → NLink nd' c) → nd''.md = nd'.md → Fits E.reg (A.set p nd'') p → Ready E L (A.set p nd'') := by
    intro nd'' hs' hl' hmd hf
    have hless : ∀ a c, LinkND (A.set p nd'') a c → LinkND (A.set p nd') a c := by
      intro a c hac
      rcases (link_set hlt).mp hac with ⟨e, h1⟩ | ⟨e, h1⟩
      · exact (link_set hlt).mpr (Or.inl ⟨e, hl' c h1⟩)
      · exact (link_set hlt).mpr (Or.inr ⟨e, h1⟩)
    refine ⟨fun q hq => ?_, fun q hq c hc => ?_, fun q hq ht => hloops q hq (TransGen.mono hless _ _ ht), fun q hq => ?_, by rw [List.length_set]; exact hsz, hfew⟩
    · by_cases e : q = p
      · subst e; exact ⟨nd'', List.getElem?_set_self hlt, hs'⟩
      · rw [List.getElem?_set_ne (Ne.symm e)]; exact hlive q hq e
    · rcases (link_set hlt).mp hc with ⟨_, h1⟩ | ⟨e, h1⟩
      · exact hl c (hl' c h1)
      · exact hclosed q hq e c h1
    · by_cases e : q = p
      · subst e; exact hf
      · intro i c nd nc id cid m mc h1 h2 h3 h4 h5 h6 h7 h8
        rw [List.getElem?_set_ne (Ne.symm e)] at h1
        by_cases ec : c = p
        · subst ec
          rw [List.getElem?_set_self hlt] at h6; cases h6
          exact hfit q hq e i c nd nd' id cid m mc (by rw [List.getElem?_set_ne (Ne.symm e)]; exact h1) h2 h3 h4 h5 (List.getElem?_set_self hlt) (by rw [← hmd]; exact h7) h8
        · rw [List.getElem?_set_ne (Ne.symm ec)] at h6
          exact hfit q hq e i c nd nc id cid m mc (by rw [List.getElem?_set_ne (Ne.symm e)]; exact h1) h2 h3 h4 h5 (by rw [List.getElem?_set_ne (Ne.symm ec)]; exact h6) h7 h8
  by_cases hf : Fits E.reg (A.set p nd') p
  · have hr := mk nd' hs (fun _ h => h) rfl hf
    exact ⟨nd', Or.inl rfl, hr, fun v => renew_stable (hr.stable hE hp) v⟩
  · unfold Fits at hf
    push Not at hf
    obtain ⟨i, c, nd, nc, id, cid, m, mc, h1, h2, h3, h4, h5, h6, h7, h8, h9⟩ := hf
    rw [List.getElem?_set_self hlt] at h1; cases h1
    have hi := hE.warp m (List.mem_of_getElem? h3) i h4
    subst hi
    obtain ⟨id', m', s1, s2, s3, s4, s5⟩ := hs
    rw [h2] at s1; cases s1
    rw [h3] at s2; cases s2
    obtain ⟨k, ks, hks⟩ : ∃ k ks, m.lookups = k :: ks := by
      cases hml : m.lookups with
      | nil => rw [hml] at h4; cases h4
      | cons k ks => exact ⟨k, ks, rfl⟩
    have hk : k = Kind.warp := by rw [hks] at h4; simpa using h4
    subst hk
    have hl0 : 0 < nd'.lookups.length := (List.getElem?_eq_some_iff.mp h5).1
    have hs' : Shaped E.reg (unplug nd') := ⟨id, m, h2, h3, s3, by unfold unplug; rw [List.length_set]; exact s4, s5⟩
    have hl' : ∀ c, NLink (unplug nd') c → NLink nd' c := by
      rintro c (hc | hc)
      · rcases List.mem_or_eq_of_mem_set hc with h | h
        · exact Or.inl h
        · cases h
      · exact Or.inr hc
    have hfit' : Fits E.reg (A.set p (unplug nd')) p := by
      intro i c nd nc id cid m mc g1 g2 g3 g4 g5 g6 g7 g8
      rw [List.getElem?_set_self hlt] at g1; cases g1
      have hi := hE.warp m (List.mem_of_getElem? g3) i g4
      subst hi
      unfold unplug at g5
      rw [List.getElem?_set_self hl0] at g5
      cases g5
    have hr := mk (unplug nd') hs' hl' rfl hfit'
    refine ⟨unplug nd', Or.inr rfl, hr, fun v => ?_⟩
    have e : tx E.reg (A.set p (unplug nd')) p = [] := tx_none (List.getElem?_set_self hlt) (nd := unplug nd') h2 h3 hks (by unfold unplug; exact List.getElem?_set_self hl0)
    rw [e, renew_unplug (List.getElem?_set_self hlt) h2 h3 ⟨s3, s4, s5⟩ (fun x hx e => ?_) hks h5 h6 h7 h8 (by simpa using h9) v, List.set_set]
    subst e
    exact hloops x hp (.single ((link_set hlt).mpr (Or.inl ⟨rfl, hx⟩)))

end FastNoise.Editor
