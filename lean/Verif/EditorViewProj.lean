import Verif.EditorViewSteps
/-! # What is shown: the graph does not depend on it (lemmas for C55) -/
namespace FastNoise.Editor
open FastNoise.Ser FastNoise.Stream FastNoise.Deser FastNoise.Spec FastNoise.RT FastNoise.Registry
open Relation

variable {E : Env}

theorem out_bind {α β : Type} {x : Out α} {f : α → Out β} {b : β} (h : x.bind f = .ok b) : ∃ a, x = .ok a ∧ f a = .ok b := by
  cases x with
  | ub => cases h
  | deep => cases h
  | ok a => exact ⟨a, rfl, h⟩

theorem loop_forEach {α σ : Type} {f : α → σ → Out σ} {g : α → Arena → Out Arena} {π : σ → Arena} (h : ∀ x s s', f x s = .ok s' → g x (π s) = .ok (π s')) :
    ∀ (l : List α) (s s' : σ), loop f l s = .ok s' → forEach g l (π s) = .ok (π s') := by
  intro l
  induction l with
  | nil => intro s s' e; simp only [loop, Out.ok.injEq] at e; subst e; rfl
  | cons x xs ih =>
    intro s s' e
    obtain ⟨a, h1, h2⟩ := out_bind e
    rw [forEach, h _ _ _ h1]
    exact ih _ _ h2

theorem renew_fix {p : Nat} {s s' : Arena × View} (h : renew E p s = .ok s') : fixOne E.reg p s.1 = .ok s'.1 := by
  unfold renew at h
  cases hs : serialise E.reg true s.1 p with
  | ub => rw [hs] at h; cases h
  | nonterm => rw [hs] at h; cases h
  | text t A =>
    rw [hs] at h
    simp only at h
    obtain ⟨b, _, h2⟩ := out_bind h
    cases h2
    obtain ⟨b, st, e1, e2⟩ := finish_arena hs
    unfold fixOne
    rw [e1]
    simp only [e2]

theorem previewV_proj {tree : Bool} {order : List Nat} : ∀ (fuel p : Nat) (s s' : Arena × View), previewV E tree order fuel p s = .ok s' → preview E.reg order fuel p s.1 = .ok s'.1 := by
  intro fuel
  induction fuel with
  | zero => intro p s s' h; simp [previewV] at h
  | succ f ih =>
    intro p s s' h
    rw [previewV] at h
    obtain ⟨s1, h1, h⟩ := out_bind h
    obtain ⟨s2, h2, h⟩ := out_bind h
    have e : s'.1 = s2.1 := by
      by_cases ht : tree = true
      · rw [if_pos ht] at h
        obtain ⟨v, _, h⟩ := out_bind h; cases h; rfl
      · rw [if_neg ht] at h; cases h; rfl
    rw [preview, renew_fix h1, e]
    refine loop_forEach (π := Prod.fst) (fun q s s' hq => ?_) order s1 s2 h2
    cases hn : s.1[q]? with
    | none => simp only [hn] at hq; cases hq
    | some nd =>
      simp only [hn] at hq ⊢
      refine loop_forEach (π := Prod.fst) (fun l s s' hl => ?_) (links nd) s s' hq
      split_ifs at hl ⊢
      · exact ih q s s' hl
      · cases hl; rfl

theorem addDataV_proj {ρ} {fuel p : Nat} {s s' : Ed × View} (h : addDataV E ρ fuel p s = .ok s') : addData E.reg ρ fuel s.1 p = .ok s'.1 := by
  unfold addDataV at h
  unfold addData
  cases hf : freeId (s.1.nodes.map (·.2)) fuel s.1.counter with
  | none => rw [hf] at h; cases h
  | some id =>
    simp only [hf] at h ⊢
    obtain ⟨r, h1, h2⟩ := out_bind h
    rw [previewV_proj _ _ _ _ h1]
    cases h2; rfl

theorem addNodeV_proj {ρ} {fuel : Nat} {nd : NodeData} {s s' : Ed × View} (h : addNodeV E ρ fuel nd s = .ok s') :
    addData E.reg ρ fuel { s.1 with arena := s.1.arena ++ [nd] } s.1.arena.length = .ok s'.1 := by
  unfold addNodeV at h
  obtain ⟨r, h1, h2⟩ := out_bind h
  have := addDataV_proj h1
  simp only at this
  rw [this]
  split_ifs at h2
  · obtain ⟨v, _, h2⟩ := out_bind h2; cases h2; rfl
  · cases h2; rfl

theorem addAllV_proj {ρ} {fuel : Nat} : ∀ (ps : List Nat) (s s' : Ed × View), loop (addDataV E ρ fuel) ps s = .ok s' → addAll E.reg ρ fuel ps s.1 = .ok s'.1 := by
  intro ps
  induction ps with
  | nil => intro s s' h; simp only [loop, Out.ok.injEq] at h; subst h; rfl
  | cons p ps ih =>
    intro s s' h
    obtain ⟨a, h1, h2⟩ := out_bind h
    rw [addAll, addDataV_proj h1]
    exact ih _ _ h2

theorem editNodeV_proj {ρ} {fuel p : Nat} {f : NodeData → Option NodeData} {s s' : Ed × View} (h : editNodeV E ρ fuel p f s = .ok s') : editNode E.reg ρ fuel s.1 p f = .ok s'.1 := by
  unfold editNodeV at h
  unfold editNode
  cases hn : s.1.arena[p]? with
  | none => rw [hn] at h; cases h
  | some nd =>
    simp only [hn] at h ⊢
    cases hf : f nd with
    | none => rw [hf] at h; cases h
    | some nd' =>
      simp only [hf] at h ⊢
      obtain ⟨r, h1, h2⟩ := out_bind h
      have := previewV_proj _ _ _ _ h1
      simp only at this
      rw [this]
      cases h2; rfl

theorem deleteNodeV_proj {ρ} {fuel x : Nat} {s s' : Ed × View} (h : deleteNodeV E ρ fuel x s = .ok s') : deleteNode E.reg ρ fuel s.1 x = .ok s'.1 := by
  unfold deleteNodeV at h
  rw [delete_eq]
  obtain ⟨r, h1, h2⟩ := out_bind h
  cases h2
  have := loop_forEach (π := Prod.fst) (g := deleteBody E.reg ((ρ (s.1.nodes.filter fun n => n.1 ≠ x)).map (·.1)) fuel x) (fun n s s' hq => ?_) _ _ _ h1
  · simp only at this ⊢
    rw [this]; rfl
  · unfold deleteBody
    cases hn : s.1[n.1]? with
    | none => simp only [hn] at hq; cases hq
    | some nd =>
      simp only [hn] at hq ⊢
      cases hd : dropLinks x (links nd) (startAttr n.2) nd with
      | none => simp only [hd] at hq; cases hq
      | some nd' =>
        simp only [hd] at hq ⊢
        split_ifs at hq ⊢
        · exact previewV_proj _ _ _ _ hq
        · cases hq; rfl

theorem unlinkV_proj {ρ} {fuel del : Nat} {s s' : Ed × View} (h : unlinkV E ρ fuel del s = .ok s') : unlink E.reg ρ fuel s.1 del = .ok s'.1 := by
  unfold unlinkV at h
  rw [unlink_eq]
  obtain ⟨r, h1, h2⟩ := out_bind h
  cases h2
  have := loop_forEach (π := Prod.fst) (g := unlinkBody E.reg ((ρ s.1.nodes).map (·.1)) fuel del) (fun n s s' hq => ?_) _ _ _ h1
  · simp only at this ⊢
    rw [this]; rfl
  · unfold unlinkBody
    cases hn : s.1[n.1]? with
    | none => simp only [hn] at hq; cases hq
    | some nd =>
      simp only [hn] at hq ⊢
      cases hd : dropAttr del (links nd) (startAttr n.2) nd with
      | none => simp only [hd] at hq; cases hq
      | some nd' =>
        simp only [hd] at hq ⊢
        split_ifs at hq ⊢
        · exact previewV_proj _ _ _ _ hq
        · cases hq; rfl

/-- An operation does to the graph what `step` says, whatever is shown. -/
theorem stepV_proj {ρ} {fuel : Nat} {s s' : Ed × View} {op : Op} (h : stepV E ρ fuel s (.graph op) = .ok s') : step E.reg ρ fuel s.1 op = .ok s'.1 := by
  cases op with
  | add md =>
    simp only [stepV] at h
    simp only [step]
    split at h
    · rename_i e; rw [e]; cases h; rfl
    · rename_i nd e; rw [e]; exact addNodeV_proj h
  | addEncoded text =>
    simp only [stepV] at h
    simp only [step]
    split at h
    · cases h
    · cases h
    · rename_i e; rw [e]; cases h; rfl
    · rename_i root nds e
      rw [e]
      simp only
      obtain ⟨r, h1, h2⟩ := out_bind h
      have := addAllV_proj _ _ _ h1
      simp only at this
      rw [this]
      split_ifs at h2
      · obtain ⟨v, _, h2⟩ := out_bind h2; cases h2; rfl
      · cases h2; rfl
  | link a b attr snap =>
    simp only [stepV] at h
    simp only [step]
    split at h
    · rename_i ps pe e1 e2
      rw [e1, e2]
      simp only
      split at h
      · cases h
      · rename_i l e3
        rw [e3]
        simp only
        split_ifs at h ⊢
        · exact editNodeV_proj h
        · cases h; rfl
    · rename_i hne
      cases h
      split
      · rename_i ps pe e1 e2; exact absurd e2 (hne ps pe e1)
      · rfl
  | unlink attr => exact unlinkV_proj h
  | delete id =>
    simp only [stepV] at h
    simp only [step]
    split at h
    · rename_i p e; rw [e]; exact deleteNodeV_proj h
    · rename_i e; rw [e]; cases h; rfl
  | convert id md same =>
    simp only [stepV] at h
    simp only [step]
    split at h
    · rename_i p m e1 e2; rw [e1, e2]; exact editNodeV_proj h
    · rename_i hne
      cases h
      split
      · rename_i p m e1 e2; exact absurd e2 (hne p m e1)
      · rfl
  | setVar id i v =>
    simp only [stepV] at h
    simp only [step]
    split at h
    · rename_i p e; rw [e]; exact editNodeV_proj h
    · rename_i e; rw [e]; cases h; rfl
  | setHybrid id i v =>
    simp only [stepV] at h
    simp only [step]
    split at h
    · rename_i p e; rw [e]; exact editNodeV_proj h
    · rename_i e; rw [e]; cases h; rfl
  | drop attr =>
    simp only [stepV] at h
    simp only [step]
    split at h
    · rename_i p e
      rw [e]
      simp only
      split_ifs at h ⊢ <;> cases h <;> rfl
    · rename_i e; rw [e]; cases h; rfl
  | addDropped md =>
    simp only [stepV] at h
    simp only [step]
    split at h
    · rename_i e; rw [e]; cases h; rfl
    · rename_i nd e
      rw [e]
      simp only
      obtain ⟨r, h1, h2⟩ := out_bind h
      rw [addNodeV_proj h1]
      exact editNodeV_proj h2
  | bench id =>
    simp only [stepV] at h
    simp only [step]
    split at h
    · rename_i p e
      rw [e]
      simp only
      obtain ⟨r, h1, h2⟩ := out_bind h
      rw [renew_fix h1]
      cases h2; rfl
    · rename_i e; rw [e]; cases h; rfl
  | clear =>
    simp only [stepV] at h
    simp only [step]
    obtain ⟨v, _, h2⟩ := out_bind h
    cases h2; rfl

end FastNoise.Editor
