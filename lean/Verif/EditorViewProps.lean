import Verif.EditorViewMain
/-! # C55: what the node editor shows and sends is what the graph is -/
namespace FastNoise.Editor
open FastNoise.Ser FastNoise.Stream FastNoise.Deser FastNoise.Spec FastNoise.RT FastNoise.Registry
open Relation

theorem shipped_ok (detached : Bool) : EnvOK (shipped detached) := ⟨reg_ok, shipped_cd_ok, few_reg, warpFirst_reg⟩

/-- **C55** (partial) In every session, whatever was added, pasted, linked, unlinked, converted, edited, deleted or cleared, each node on screen carries the encoded text of the tree below it
as it is now.  Missing, because false: operations that are not `Calm` (`C55_cycle_stale`, `C55_convert_stale`, `C35_delete_uaf`, `C35_drop_dangling`), more than 65536 nodes on screen. -/
theorem C55_current_partial (detached : Bool) (s : Ed × View) (h : SessionV (shipped detached) s) : Current Registry.reg s := by
  obtain ⟨_, hv⟩ := vs_of_session (shipped_ok detached) h
  intro p hp
  have := (hv.ready.text (shipped_ok detached) (mem_ptrs.mpr hp)).2.1
  rw [hv.cur p (mem_ptrs.mpr hp)]
  exact this

/-- **C55** (partial) So a node's text ("Copy Encoded Node Tree") is empty exactly if something below the node is missing, and otherwise it decodes to the tree below the node.
Missing: as for `C55_current_partial`. -/
theorem C55_copied_partial (detached : Bool) (s : Ed × View) (h : SessionV (shipped detached) s) (p : Nat) (hp : Shown s.1 p) :
    (s.2.text p ≠ [] ↔ ∀ q, Reach s.1.arena p q → Complete Registry.reg s.1.arena q) ∧
    (s.2.text p ≠ [] → ∃ root B, deserialiseNodeData Registry.reg (s.2.text p) = .tree root B ∧ SameTree s.1.arena p B root) := by
  have hcur := C55_current_partial detached s h p hp
  obtain ⟨_, hv⟩ := vs_of_session (shipped_ok detached) h
  obtain ⟨f1, f2, f3, f4⟩ := hv.ready.facts (mem_ptrs.mpr hp)
  have hpv : PointersValid Registry.reg s.1.arena p := by
    intro q hq
    obtain ⟨nd, id, m, a1, a2, a3⟩ := f1 q hq
    exact ⟨nd, a1, fun i hi => ⟨m, by rw [a2] at hi; cases hi; exact a3⟩⟩
  obtain ⟨t, t1, t2⟩ := C09_serialise_total_iff Registry.reg reg_ok s.1.arena p hpv f2 hv.ready.size
  rw [hcur] at t1
  obtain ⟨e, _⟩ := SerOut.text.inj t1
  rw [← e] at t2
  refine ⟨t2, fun hne => ?_⟩
  obtain ⟨t', root, B, u1, u2, u3⟩ := C04_roundtrip Registry.reg reg_ok s.1.arena p hpv f2 (t2.mp hne) f4
  rw [hcur] at u1
  obtain ⟨e', _⟩ := SerOut.text.inj u1
  rw [e']
  exact ⟨root, B, u2, u3⟩

/-- **C55** (partial) Whenever a node on screen is selected and its tree is complete, its current text is the active tree, the tree last sent to other programs and (unless the node graph is
detached from the previews) the tree in the texture and mesh previews: no edit anywhere below the selected node is missed.  Missing: as for `C55_current_partial`; an incomplete selected
tree leaves the previews as they were. -/
theorem C55_preview_partial (detached : Bool) (s : Ed × View) (h : SessionV (shipped detached) s) : Synced detached s := by
  obtain ⟨_, hv⟩ := vs_of_session (shipped_ok detached) h
  exact fun p hs hp hne => hv.sync p (mem_ptrs.mpr hp) hs hne

/-- **C55** (partial) What is seen in the previews is the selected node's tree.  Missing: as for `C55_preview_partial`. -/
theorem C55_seen_partial (s : Ed × View) (h : SessionV (shipped false) s) (p : Nat) (hs : s.2.selected = some p) (hp : Shown s.1 p) (hc : ∀ q, Reach s.1.arena p q → Complete Registry.reg s.1.arena q) :
    ∃ root B, deserialiseNodeData Registry.reg s.2.picture = .tree root B ∧ SameTree s.1.arena p B root := by
  obtain ⟨h1, h2⟩ := C55_copied_partial false s h p hp
  have hne := h1.mpr hc
  obtain ⟨_, _, h3⟩ := C55_preview_partial false s h p hs hp hne
  rw [h3 rfl]
  exact h2 hne

/-- **C55** What is remembered and shown never influences the graph: an operation changes it as described without caches (C35), for every state of the caches. -/
theorem C55_same_graph (E : Env) (ρ : List (Nat × Nat) → List (Nat × Nat)) (fuel : Nat) (s s' : Ed × View) (op : Op) (h : stepV E ρ fuel s (.graph op) = .ok s') : step E.reg ρ fuel s.1 op = .ok s'.1 :=
  stepV_proj h

/-- **C55** A tree received from another program is taken over whole (if a generator can be made of it): it becomes the active tree and, unless detached, the tree in the previews; nothing is
sent back; a selected node stays selected only if it is that tree; no node and no text changes. -/
theorem C55_received (E : Env) (ρ : List (Nat × Nat) → List (Nat × Nat)) (fuel : Nat) (s s' : Ed × View) (t : List UInt8) (root : Nat) (B : List Gen)
    (ht : newFromEncodedNodeTree E.reg E.cd true t = .tree root B) (h : stepV E ρ fuel s (.received t) = .ok s') :
    s'.2.active = t ∧ (E.detached = false → s'.2.picture = t) ∧ s'.2.sent = s.2.sent ∧ s'.1 = s.1 ∧ s'.2.text = s.2.text ∧
      ∀ p, s'.2.selected = some p → s.2.selected = some p ∧ (Shown s.1 p → s.2.text p = t) := by
  have hne : t ≠ [] := by
    rintro rfl
    have hb : builds E [] = .ok true := by unfold builds; rw [ht]
    rw [builds_nil] at hb; cases hb
  have hb : builds E t = .ok true := by unfold builds; rw [ht]
  simp only [stepV, setPreview, hb, Out.bind, if_true, hne, ne_eq, not_false_eq_true, Out.ok.injEq] at h
  subst h
  refine ⟨rfl, fun hd => ?_, ?_, rfl, ?_, fun p hp => ?_⟩
  · simp [setActive, hd]
  · cases hd : E.detached <;> simp [setActive]
  · cases hd : E.detached <;> simp [setActive]
  · have key : ∀ w : View, w.text = s.2.text → w.selected = s.2.selected → (setActive (s.1.nodes.map (·.1)) t w).selected = some p →
        s.2.selected = some p ∧ (Shown s.1 p → s.2.text p = t) := by
      intro w w1 w2 hw
      unfold setActive at hw
      by_cases hst : selText (s.1.nodes.map (·.1)) w ≠ t
      · rw [if_pos hst] at hw; cases hw
      · rw [if_neg hst] at hw
        push Not at hst
        simp only at hw
        refine ⟨by rw [← w2]; exact hw, fun hsh => ?_⟩
        unfold selText at hst
        rw [hw] at hst
        simp only at hst
        rw [if_pos (mem_ptrs.mpr hsh)] at hst
        rw [← w1]; exact hst
    cases hd : E.detached with
    | true => simp only [hd, if_true] at hp; exact key _ rfl rfl hp
    | false => simp only [hd, Bool.false_eq_true, if_false] at hp; exact key _ rfl rfl hp

/-- **C55** Clicking a node's picture selects it, whatever was selected, and sends its text once if its tree is complete, nothing otherwise. -/
theorem C55_click_partial (detached : Bool) (ρ : List (Nat × Nat) → List (Nat × Nat)) (fuel : Nat) (s s' : Ed × View) (hs : SessionV (shipped detached) s) (p id : Nat) (hp : (p, id) ∈ s.1.nodes)
    (h : stepV (shipped detached) ρ fuel s (.select id) = .ok s') :
    s'.1 = s.1 ∧ s'.2.selected = some p ∧ s'.2.text = s.2.text ∧ s'.2.sent = if s.2.text p = [] then s.2.sent else s.2.text p :: s.2.sent := by
  obtain ⟨hinv, hv⟩ := vs_of_session (shipped_ok detached) hs
  have hm : p ∈ ptrs s.1 := mem_ptrs.mpr ⟨id, hp⟩
  simp only [stepV, find_of_mem hinv hp] at h
  obtain ⟨w, h1, h2⟩ := out_bind h
  cases h2
  have hb : s.2.text p ≠ [] → builds (shipped detached) (s.2.text p) = .ok true := by
    rw [hv.cur p hm]; exact (hv.stable (shipped_ok detached) p hm).2
  obtain ⟨a1, a2, _⟩ := changeSelected_spec hb h1
  refine ⟨rfl, a1, a2, ?_⟩
  unfold changeSelected selText at h1
  have hm' : p ∈ s.1.nodes.map (·.1) := hm
  simp only [if_pos hm'] at h1
  by_cases he : s.2.text p = []
  · rw [if_pos he]
    simp only [he, ne_eq, not_true_eq_false, if_false, Out.ok.injEq] at h1
    subst h1; rfl
  · rw [if_neg he]
    simp only [he, ne_eq, not_false_eq_true, if_true, setPreview, hb he, Out.bind, Out.ok.injEq] at h1
    subst h1
    cases hd : (shipped detached).detached <;> simp [setActive]

/-! ## Non-vacuity -/

/-- `PossibleV` and `Calm` checked by evaluation, for the operations of the examples. -/
def checkV (st : Ed) : OpV → Bool
  | .graph (.add _) => true
  | .graph (.unlink _) => true
  | .graph .clear => true
  | .graph (.bench _) => true
  | .graph (.link a e attr snap) => check st (.link a e attr snap) && st.nodes.all fun n => n.2 ≠ a || (st.nodes.all (fun m => m.2 ≠ e || m.1 ≠ n.1) && match st.arena[n.1]? with
    | none => true
    | some nd => links nd |>.all (· = none))
  | .graph (.setVar e i _) => st.nodes.all fun n => n.2 ≠ e || match st.arena[n.1]? with
    | none => true
    | some nd => i < nd.vars.length
  | .select _ => true
  | .received _ => true
  | .settings => true
  | .simd => true
  | _ => false

theorem calm_of_check {st : Ed} {op : OpV} (h : checkV st op = true) : PossibleV Registry.reg st op ∧ Calm Registry.reg st op := by
  cases op with
  | graph op =>
    cases op with
    | link a e attr snap =>
      simp only [checkV, Bool.and_eq_true] at h
      refine ⟨(possible_of_check (reg := Registry.reg) h.1).1, fun ps pe h1 h2 hr => ?_⟩
      have h3 := List.all_eq_true.mp h.2 _ h1
      simp only [ne_eq, decide_not, decide_true, Bool.not_true, Bool.false_or, Bool.and_eq_true] at h3
      have h4 := List.all_eq_true.mp h3.1 _ h2
      simp only [decide_true, Bool.not_true, Bool.false_or, Bool.not_eq_true', decide_eq_false_iff_not] at h4
      rcases ReflTransGen.cases_head hr with e | ⟨c, ⟨n, hn, hc⟩, _⟩
      · exact h4 e.symm
      · have h5 := h3.2
        rw [hn] at h5
        have := List.all_eq_true.mp h5 _ (mem_links.mpr hc)
        simp at this
    | setVar e i w =>
      refine ⟨fun p nd h1 h2 => ?_, trivial⟩
      simp only [checkV] at h
      have h3 := List.all_eq_true.mp h _ h1
      simp only [ne_eq, decide_not, decide_true, Bool.not_true, Bool.false_or] at h3
      rw [h2] at h3
      simpa using h3
    | add => exact ⟨trivial, trivial⟩
    | unlink => exact ⟨trivial, trivial⟩
    | clear => exact ⟨trivial, trivial⟩
    | bench => exact ⟨trivial, trivial⟩
    | _ => simp [checkV] at h
  | _ => exact ⟨trivial, trivial⟩

def runCheckedV (E : Env) (fuel : Nat) : List OpV → Ed × View → Option (Ed × View)
  | [], s => some s
  | op :: ops, s => if checkV s.1 op then match stepV E id fuel s op with
      | .ok s' => if s'.1.nodes.length ≤ 65536 ∧ s'.1.arena.length < 2 ^ 54 then runCheckedV E fuel ops s' else none
      | _ => none
    else none

theorem sessionV_run {detached : Bool} {fuel : Nat} : ∀ (ops : List OpV) (s s' : Ed × View), SessionV (shipped detached) s → runCheckedV (shipped detached) fuel ops s = some s' → SessionV (shipped detached) s' := by
  intro ops
  induction ops with
  | nil => intro s s' h e; simp only [runCheckedV] at e; cases e; exact h
  | cons op ops ih =>
    intro s s' h e
    rw [runCheckedV] at e
    split_ifs at e with hc
    split at e
    · rename_i s1 hs
      split_ifs at e with hn
      obtain ⟨p1, p2⟩ := calm_of_check hc
      exact ih s1 s' (.step h (fun l => List.Perm.refl _) p1 p2 hs hn.1 hn.2) e
    · cases e

/-- What an operation leaves behind, if it completes. -/
def after (r : Out (Ed × View)) (P : Ed × View → Bool) : Bool :=
  match r with
  | .ok s => P s
  | _ => false

theorem of_after {r : Out (Ed × View)} {P : Ed × View → Bool} (h : after r P = true) : ∃ s, r = .ok s ∧ P s = true := by
  cases r with
  | ok s => exact ⟨s, rfl, h⟩
  | ub => cases h
  | deep => cases h

/-- Constant (id 2), Add (id 3) linked to it, both inputs; the Add is clicked; then the Constant is set to 2. -/
def viewOps : List OpV := [.graph (.add 0), .graph (.add 21), .graph (.link 2 3 (startAttr 3) false), .select 3, .settings, .graph (.setVar 2 0 0x40000000), .simd]

/-- The session reaches a state in which the Add is selected and has a text, which is the active, sent and shown one, and is not the one it had before the Constant below it was changed. -/
example : ∃ s, SessionV (shipped false) s ∧ s.2.selected = some 1 ∧ s.1.nodes = [(1, 3), (0, 2)] ∧ s.2.text 1 ≠ [] ∧ s.2.picture = s.2.text 1 ∧ s.2.sent.length = 3 ∧
    ∃ t, s.2.sent[1]? = some t ∧ t ≠ s.2.text 1 := by
  have h : ((runCheckedV (shipped false) 20 viewOps (init, View.init)).map fun s => (s.2.selected, s.1.nodes, decide (s.2.text 1 ≠ [] ∧ s.2.picture = s.2.text 1 ∧ s.2.sent.length = 3 ∧
      s.2.sent[1]? ≠ none ∧ s.2.sent[1]? ≠ some (s.2.text 1)))) = some (some 1, [(1, 3), (0, 2)], true) := by decide +kernel
  obtain ⟨s, h1, h2⟩ := Option.map_eq_some_iff.mp h
  simp only [Prod.mk.injEq, decide_eq_true_eq] at h2
  obtain ⟨a1, a2, a3, a4, a5, a6, a7⟩ := h2
  obtain ⟨t, ht⟩ := Option.ne_none_iff_exists'.mp a6
  exact ⟨s, sessionV_run (fuel := 20) viewOps _ s .start h1, a1, a2, a3, a4, a5, t, ht, fun e => a7 (by rw [ht, e])⟩

/-- Clicking: in the session Constant (2), Add (3) with both inputs from it, the Constant is selected by a click although the Add was, and its text is sent. -/
example : ∃ s s', SessionV (shipped false) s ∧ (0, 2) ∈ s.1.nodes ∧ s.2.selected = some 1 ∧ s.2.text 0 ≠ [] ∧ stepV (shipped false) id 20 s (.select 2) = .ok s' := by
  have h : ((runCheckedV (shipped false) 20 viewOps (init, View.init)).map fun s => decide ((0, 2) ∈ s.1.nodes ∧ s.2.selected = some 1 ∧ s.2.text 0 ≠ []) && after (stepV (shipped false) id 20 s (.select 2)) fun _ => true) = some true := by
    decide +kernel
  obtain ⟨s, h1, h2⟩ := Option.map_eq_some_iff.mp h
  simp only [Bool.and_eq_true, decide_eq_true_eq] at h2
  obtain ⟨s', h3, _⟩ := of_after h2.2
  exact ⟨s, s', sessionV_run (fuel := 20) viewOps _ s .start h1, h2.1.1, h2.1.2.1, h2.1.2.2, h3⟩

/-- Receiving: the text of a Constant arrives while the Add is selected; it is accepted. -/
example : ∃ s s' t root B, SessionV (shipped false) s ∧ s.2.selected = some 1 ∧ newFromEncodedNodeTree (shipped false).reg (shipped false).cd true t = .tree root B ∧
    stepV (shipped false) id 20 s (.received t) = .ok s' := by
  have h : ((runCheckedV (shipped false) 20 viewOps (init, View.init)).map fun s => decide (s.2.selected = some 1) &&
      (match newFromEncodedNodeTree (shipped false).reg (shipped false).cd true (s.2.text 0) with | .tree _ _ => true | _ => false) &&
      after (stepV (shipped false) id 20 s (.received (s.2.text 0))) fun _ => true) = some true := by
    decide +kernel
  obtain ⟨s, h1, h2⟩ := Option.map_eq_some_iff.mp h
  simp only [Bool.and_eq_true, decide_eq_true_eq] at h2
  obtain ⟨⟨h3, h4⟩, h5⟩ := h2
  obtain ⟨s', h6, _⟩ := of_after h5
  split at h4
  · rename_i root B hr
    exact ⟨s, s', s.2.text 0, root, B, sessionV_run (fuel := 20) viewOps _ s .start h1, h3, hr, h6⟩
  · cases h4

/-! ## Findings -/

/-- The node has a text, but its tree is not complete. -/
def stale (p : Nat) (s : Ed × View) : Bool := s.1.nodes.any (·.1 = p) && s.2.text p ≠ [] && match serialise Registry.reg false s.1.arena p with
  | .text t _ => t = []
  | _ => false

theorem not_current {p : Nat} {s : Ed × View} (h : stale p s = true) : ¬ Current Registry.reg s := by
  intro hc
  simp only [stale, Bool.and_eq_true, List.any_eq_true, decide_eq_true_eq] at h
  obtain ⟨⟨⟨n, hn, rfl⟩, h2⟩, h3⟩ := h
  rw [hc n.1 ⟨n.2, hn⟩] at h3
  simp only [decide_eq_true_eq] at h3
  exact h2 h3

/-- Finding: a link that closes a cycle is undone while the user of the changed node is serialised; the user keeps the text it had before (or one of a tree that is no longer there).
Constant (2), Add (3), Add (4); 2 → 3, 3 → 4, then 4 → the second input of 3: the link 3 → 4 is removed, Add (4) still offers the text with it. -/
theorem C55_cycle_stale : ∃ s, runV (shipped false) id 20 [.graph (.add 0), .graph (.add 21), .graph (.add 21), .graph (.link 2 3 (startAttr 3) false), .graph (.link 3 4 (startAttr 4) false),
      .graph (.link 4 3 (startAttr 3 + 1) false)] (init, View.init) = .ok s ∧ ¬ Current Registry.reg s := by
  obtain ⟨s, h1, h2⟩ := of_after (P := stale 2) (r := runV (shipped false) id 20 [.graph (.add 0), .graph (.add 21), .graph (.add 21), .graph (.link 2 3 (startAttr 3) false),
    .graph (.link 3 4 (startAttr 4) false), .graph (.link 4 3 (startAttr 3 + 1) false)] (init, View.init)) (by decide +kernel)
  exact ⟨s, h1, not_current h2⟩

/-- Finding: converting a domain warp in use to something else empties the slots of its users; if that happens to a user while another node is serialised, its own text is not made again.
Constant (2), domain warp (3) of it, two domain warp fractals (4, 5) of that, Add (6) of both; then the domain warp is converted to a Constant: fractal (4) still offers its old text. -/
theorem C55_convert_stale : ∃ s, runV (shipped false) id 20 [.graph (.add 0), .graph (.add 18), .graph (.add 19), .graph (.add 19), .graph (.add 21), .graph (.link 2 3 (startAttr 3) false),
      .graph (.link 3 4 (startAttr 4) false), .graph (.link 3 5 (startAttr 5) false), .graph (.link 4 6 (startAttr 6) false), .graph (.link 5 6 (startAttr 6 + 1) false),
      .graph (.convert 3 0 false)] (init, View.init) = .ok s ∧ ¬ Current Registry.reg s := by
  obtain ⟨s, h1, h2⟩ := of_after (P := stale 2) (r := runV (shipped false) id 20 [.graph (.add 0), .graph (.add 18), .graph (.add 19), .graph (.add 19), .graph (.add 21),
    .graph (.link 2 3 (startAttr 3) false), .graph (.link 3 4 (startAttr 4) false), .graph (.link 3 5 (startAttr 5) false), .graph (.link 4 6 (startAttr 6) false),
    .graph (.link 5 6 (startAttr 6 + 1) false), .graph (.convert 3 0 false)] (init, View.init)) (by decide +kernel)
  exact ⟨s, h1, not_current h2⟩

/-- Finding: "Clear All Nodes" leaves the texture and mesh previews with the tree of a node that is gone, although no tree is active any more (`SetPreviewGenerator`
renews the pictures only if there is a generator). -/
theorem C55_clear_keeps_picture : ∃ s, SessionV (shipped false) s ∧ s.1.nodes = [] ∧ s.2.active = [] ∧ s.2.picture ≠ [] := by
  have h : ((runCheckedV (shipped false) 20 [.graph (.add 0), .graph .clear] (init, View.init)).map fun s => decide (s.1.nodes = [] ∧ s.2.active = [] ∧ s.2.picture ≠ [])) = some true := by decide +kernel
  obtain ⟨s, h1, h2⟩ := Option.map_eq_some_iff.mp h
  exact ⟨s, sessionV_run (fuel := 20) _ _ s .start h1, by simpa using h2⟩

end FastNoise.Editor
