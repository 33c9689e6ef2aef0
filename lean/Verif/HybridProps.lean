import Verif.HybridSpec
import Mathlib.Data.List.Induction
/-! # C23: hybrid inputs follow last-write-wins rules -/
namespace FastNoise.Hybrid

variable {K V : Type}

theorem addressed_nil (i : Nat) : addressed i ([] : List (Nat × Op K V)) = [] := rfl

theorem addressed_append (i : Nat) (h : List (Nat × Op K V)) (e : Nat × Op K V) :
    addressed i (h ++ [e]) = addressed i h ++ (if e.1 = i then [e.2] else []) := by
  by_cases c : e.1 = i <;> simp [addressed, List.filter_append, c]

theorem lastConst_append (d : V) (l : List (Op K V)) (o : Op K V) :
    lastConst d (l ++ [o]) = (o.const?).getD (lastConst d l) := by
  unfold lastConst
  cases h : o.const? <;> simp [h]

theorem connected_append (l : List (Op K V)) (o : Op K V) :
    connected (l ++ [o]) = if o.effective then (match o with | .source g => g | .apiNode g => g | _ => none) else connected l := by
  unfold connected
  cases o with
  | apiNode g => cases g <;> simp [Op.effective]
  | _ => simp [Op.effective]

/-- Invariant of the whole run. -/
theorem run_inv (lvl : Nat) (dflt : Nat → V) (h : List (Nat × Op K V)) (hl : SameLevel lvl h) (i : Nat) :
    let s := (Inputs.fresh dflt).run lvl h i
    s.base = connected (addressed i h) ∧ s.simd = connected (addressed i h) ∧
      s.constant = lastConst (dflt i) (addressed i h) := by
  induction h using List.reverseRecOn with
  | nil => exact ⟨rfl, rfl, rfl⟩
  | append_singleton h e ih =>
    have ih := ih (fun j g hg => hl j g (by rcases hg with hg | hg <;> simp [hg]))
    obtain ⟨j, o⟩ := e
    simp only [Inputs.run, List.foldl_append, List.foldl_cons, List.foldl_nil] at ih ⊢
    rw [addressed_append]
    by_cases c : i = j
    · subst c
      simp only [Inputs.apply, if_true, connected_append, lastConst_append]
      cases o with
      | const v => simp [Src.apply, Src.setConst, Src.ofConst, Op.const?, Op.effective]
      | apiFloat v => simp [Src.apply, Src.setConst, Src.ofConst, Op.const?, Op.effective]
      | source g =>
        cases g with
        | none => simp [Src.apply, Src.setSource, Op.const?, Op.effective, simdPtr, ih]
        | some g =>
          have : g.level = lvl := hl i g (by simp)
          simp [Src.apply, Src.setSource, Op.const?, Op.effective, simdPtr, ih, this]
      | apiNode g =>
        cases g with
        | none => simpa [Src.apply, Op.const?, Op.effective] using ih
        | some g =>
          have : g.level = lvl := hl i g (by simp)
          simp [Src.apply, Src.setSource, Op.const?, Op.effective, simdPtr, ih, this]
    · have c' : ¬ j = i := fun h => c h.symm
      simpa [Inputs.apply, c, c'] using ih

/-- **C23.** After any history of assignments to the hybrid inputs of a node (constants and sources,
through the C++ setters or the C API, in any order and to any inputs), generation reads from each
input the source of the last accepted assignment if that assignment was a non-null source, and
otherwise the last constant assigned to this input (its default if there was none). -/
theorem C23_last_write_wins (lvl : Nat) (dflt : Nat → V) (h : List (Nat × Op K V)) (hl : SameLevel lvl h) (i : Nat) (k : K) :
    ((Inputs.fresh dflt).run lvl h i).value k = expected (dflt i) (addressed i h) k := by
  have := run_inv lvl dflt h hl i
  simp only [Src.value, expected, this.2.1, this.2.2]
  cases connected (addressed i h) <;> rfl

/-- **C23**, inputs are independent: a history acts on input `i` exactly as the assignments that
addressed `i` alone. -/
theorem C23_inputs_independent (lvl : Nat) (dflt : Nat → V) (h : List (Nat × Op K V)) (i : Nat) :
    (Inputs.fresh dflt).run lvl h i = (Inputs.fresh dflt).run lvl (h.filter fun e => e.1 = i) i := by
  unfold Inputs.run
  generalize Inputs.fresh dflt = s
  suffices ∀ s t : Inputs K V, s i = t i →
      h.foldl (Inputs.apply lvl) s i = (h.filter fun e => e.1 = i).foldl (Inputs.apply lvl) t i from this s s rfl
  induction h with
  | nil => intro s t e; exact e
  | cons a h ih =>
    intro s t e
    by_cases c : a.1 = i
    · simp only [List.foldl_cons, List.filter_cons, c, decide_true, if_true]
      apply ih; simp [Inputs.apply, c, e]
    · simp only [List.foldl_cons, List.filter_cons, c, decide_false]
      apply ih
      have c' : ¬ i = a.1 := fun h => c h.symm
      simp [Inputs.apply, c', e]

/-- **C23**, what the API reports: a call returns `false` exactly when it passes a null source to the
metadata setter, and then nothing changes. -/
theorem C23_rejected_iff (lvl : Nat) (s : Src K V) (o : Op K V) :
    ((s.apply lvl o).2 = false ↔ o = .apiNode none) ∧ ((s.apply lvl o).2 = false → (s.apply lvl o).1 = s) := by
  cases o with
  | apiNode g => cases g <;> simp [Src.apply]
  | _ => simp [Src.apply]

/-- **C23**, Terrace smoothness: after any history of smoothness assignments the smoothing factor used
by generation is `1 + 1 / smoothness` of the value the input currently supplies, and no smoothing takes
place when that value is zero (the reciprocal cached by the float setter is never stale when used). -/
theorem C23_terrace_smoothness [DecidableEq V] (zero : V) (rc : V → V) (lvl : Nat) (h : List (Op K V)) (k : K) :
    let t := h.foldl (Terrace.apply zero rc lvl) (Terrace.fresh zero)
    t.factor zero rc k = if t.smooth.value k ≠ zero then some (rc (t.smooth.value k)) else none := by
  intro t
  have inv : t.smooth.constant ≠ zero → t.recip = rc t.smooth.constant := by
    show (h.foldl (Terrace.apply zero rc lvl) (Terrace.fresh zero)).smooth.constant ≠ zero →
      (h.foldl (Terrace.apply zero rc lvl) (Terrace.fresh zero)).recip = rc (h.foldl (Terrace.apply zero rc lvl) (Terrace.fresh zero)).smooth.constant
    induction h using List.reverseRecOn with
    | nil => intro c; exact absurd rfl c
    | append_singleton h o ih =>
      simp only [List.foldl_append, List.foldl_cons, List.foldl_nil]
      generalize h.foldl (Terrace.apply zero rc lvl) (Terrace.fresh zero) = t' at ih
      cases o with
      | const v =>
        by_cases c : v = zero <;> simp [Terrace.apply, Src.apply, Src.setConst, Src.ofConst, c]
      | apiFloat v =>
        by_cases c : v = zero <;> simp [Terrace.apply, Src.apply, Src.setConst, Src.ofConst, c]
      | source g => simpa [Terrace.apply, Src.apply, Src.setSource] using ih
      | apiNode g => cases g <;> simpa [Terrace.apply, Src.apply, Src.setSource] using ih
  unfold Terrace.factor Src.value
  cases t.smooth.simd with
  | some g => rfl
  | none =>
    by_cases c : t.smooth.constant = zero
    · simp [c]
    · simp [c, inv c]

/-! ## Deviations -/

/-- The level hypothesis of `C23_last_write_wins` is needed: a source created for another SIMD level is
silently stored but generation keeps using the constant (release build; only an assert guards it). -/
theorem C23_level_mismatch_ignored (lvl : Nat) (s : Src K V) (g : Gen K V) (hg : g.level ≠ lvl) (k : K) :
    (s.setSource lvl (some g)).base = some g ∧ (s.setSource lvl (some g)).value k = s.constant := by
  simp [Src.setSource, simdPtr, hg, Src.value]

/-- FastNoise_C.h:512-514 documents that passing null to `fnSetHybridNodeLookup` reverts to the
constant.  It does not: the source stays connected and the call returns `false`. -/
theorem C23_api_null_does_not_revert (lvl : Nat) (dflt : Nat → V) (g : Gen K V) (hg : g.level = lvl) (k : K) :
    ((Inputs.fresh dflt).run lvl [(0, .apiNode (some g)), (0, .apiNode none)] 0).value k = g.eval k := by
  simp [Inputs.run, Inputs.apply, Src.apply, Src.setSource, simdPtr, hg, Src.value]

/-- FastNoise_C.h:525-527 documents that a connected node keeps priority over a constant set later.  It
does not: the float setter disconnects the node. -/
theorem C23_api_float_disconnects (lvl : Nat) (dflt : Nat → V) (g : Gen K V) (v : V) (k : K) :
    ((Inputs.fresh dflt).run lvl [(0, .apiNode (some g)), (0, .apiFloat v)] 0).value k = v := by
  simp [Inputs.run, Inputs.apply, Src.apply, Src.setConst, Src.ofConst, Src.value]

/-! ## The hypotheses are met -/

example : SameLevel 3 [(0, Op.const (5 : Nat)), (1, .source (some ⟨3, fun (_ : Nat) => 7⟩)), (0, .source none), (1, .apiNode none)] ∧
    (let h : List (Nat × Op Nat Nat) := [(0, Op.const (5 : Nat)), (1, .source (some ⟨3, fun (_ : Nat) => 7⟩)), (0, .source none), (1, .apiNode none)]
     ((Inputs.fresh fun _ => 1).run 3 h 0).value 9 = 5 ∧ ((Inputs.fresh fun _ => 1).run 3 h 1).value 9 = 7 ∧
       ((Inputs.fresh fun _ => 1).run 3 h 2).value 9 = 1) := by
  refine ⟨?_, rfl, rfl, rfl⟩
  intro i g hg
  simp at hg
  rw [hg.2]

example : ((Inputs.fresh fun _ => 1).run 3 [(0, Op.const (5 : Nat)), (0, .source (some ⟨3, fun (_ : Nat) => 7⟩)), (0, .source none)] 0).value 9 = 5 := rfl

example : let t := [Op.const 4, .source (some ⟨0, fun (k : Nat) => k⟩), .source none].foldl (Terrace.apply 0 (fun s => 1 + 100 / s) 0) (Terrace.fresh 0)
    t.factor 0 (fun s => 1 + 100 / s) 2 = some 26 := by decide

end FastNoise.Hybrid
