import Verif.EditorAutosaveLemmas
import Verif.EditorViewProps
/-! # C56: work in the node editor is not lost -/
namespace FastNoise.Editor
open FastNoise.Ser FastNoise.Stream FastNoise.Deser FastNoise.Spec FastNoise.RT FastNoise.Registry
open Relation

/-- **C56** An operation that adds a node, or changes the type, a value or a link of a node on screen, marks the settings as to be written. -/
theorem C56_marked (detached cmdline : Bool) (pr0 : Prefs) (d d' : Desk) (h : DeskSession (shipped detached) cmdline pr0 d) (o : OpV) (ρ : List (Nat × Nat) → List (Nat × Nat)) (hρ : SomeOrder ρ)
    (fuel : Nat) (e : act (shipped detached) cmdline ρ fuel d (.op o) = .ok d') (n : Nat × Nat) (hn : n ∈ d'.s.1.nodes) (hc : n ∉ d.s.1.nodes ∨ d'.s.1.arena[n.1]? ≠ d.s.1.arena[n.1]?) :
    d'.s.2.dirty = true := by
  have hd := desk_ok (shipped_ok detached) h
  simp only [act] at e
  obtain ⟨s, e1, e2⟩ := out_bind e
  cases e2
  by_contra hx
  rw [Bool.not_eq_true] at hx
  obtain ⟨k, _⟩ := stepV_clean (shipped_ok detached).reg (inv_of_session few_reg warpFirst_reg hd.session) (fit_of_session few_reg warpFirst_reg hd.session) hd.size hρ e1 hx
  obtain ⟨k1, k2⟩ := k n hn
  exact hc.elim (fun h => h k1) (fun h => h k2)

/-- **C56** Whenever no write of the settings file is due, the file holds every node on screen as it is, and the settings of the node pictures: if the program dies now and is started again,
nothing that is on screen is lost. -/
theorem C56_nothing_lost (detached : Bool) (pr0 : Prefs) (d : Desk) (h : DeskSession (shipped detached) false pr0 d) (hq : Quiet d) : Holds Registry.reg pr0 d.disk d := by
  have hd := desk_ok (shipped_ok detached) h
  rcases hd.held rfl hq with hb | ⟨h1, h2⟩
  · exact backed_holds reg_ok (inv_of_session few_reg warpFirst_reg hd.session) hb pr0
  · intro ρ det fuel hρ hf
    obtain ⟨o1, o2, _⟩ := load_ok (fuel := fuel) (det := det) warpFirst_reg hρ hd.file pr0
    cases hl : load Registry.reg ρ fuel det pr0 d.disk with
    | ub => exact absurd hl o1
    | deep => exact absurd hl (o2 hf)
    | ok ld =>
      have ht := (tuned_load hl).trans h2.symm
      unfold tuned at ht
      simp only [Prod.mk.injEq] at ht
      exact ⟨ld, rfl, fun p id nd hp => (by rw [h1] at hp; cases hp), ht.2.1, ht.2.2, by rw [ht.1]; exact savedValue_refl _⟩

/-- **C56** A write that is due stays due, whatever happens, until a frame writes the file. -/
theorem C56_stays_due (detached cmdline : Bool) (pr0 : Prefs) (d d' : Desk) (h : DeskSession (shipped detached) cmdline pr0 d) (hq : ¬ Quiet d) (a : Act) (ρ : List (Nat × Nat) → List (Nat × Nat))
    (hρ : SomeOrder ρ) (fuel : Nat) (e : act (shipped detached) cmdline ρ fuel d a = .ok d') : ¬ Quiet d' ∨ ∃ ripe detach, a = .frame ripe detach ∧ (d.pending && ripe || detach) = true := by
  have hd := desk_ok (shipped_ok detached) h
  cases a with
  | op o =>
    simp only [act] at e
    obtain ⟨s, e1, e2⟩ := out_bind e
    cases e2
    refine Or.inl fun hq' => hq ⟨?_, hq'.2⟩
    exact (stepV_clean (shipped_ok detached).reg (inv_of_session few_reg warpFirst_reg hd.session) (fit_of_session few_reg warpFirst_reg hd.session) hd.size hρ e1 hq'.1).2
  | move g o =>
    simp only [act, Out.ok.injEq] at e
    subst e
    exact Or.inl hq
  | tune x y z =>
    simp only [act] at e
    obtain ⟨s, e1, e2⟩ := out_bind e
    cases e2
    simp only [stepV] at e1
    obtain ⟨r, _, e3⟩ := out_bind e1
    cases e3
    exact Or.inl fun hq' => by cases hq'.1
  | frame ripe detach =>
    by_cases hw : (d.pending && ripe || detach) = true
    · exact Or.inr ⟨ripe, detach, rfl, hw⟩
    · left
      simp only [act, frameStep, if_neg hw, Out.ok.injEq] at e
      subst e
      intro hq'
      by_cases hx : d.s.2.dirty = true
      · simp only [hx, if_true] at hq'; cases hq'.2
      · rw [if_neg hx] at hq'; exact hq hq'

/-- **C56** A frame in which the timer has run out, or in which the graph is detached, writes the file: it then is the editor as it is, and nothing is due any more.  The frame changes
nothing on screen. -/
theorem C56_written (detached : Bool) (pr0 : Prefs) (d : Desk) (h : DeskSession (shipped detached) false pr0 d) (ripe detach : Bool) (hw : (d.pending && ripe || detach) = true)
    (ρ : List (Nat × Nat) → List (Nat × Nat)) (hρ : SomeOrder ρ) (fuel : Nat) (hf : d.s.1.nodes.length < fuel) :
    ∃ d', act (shipped detached) false ρ fuel d (.frame ripe detach) = .ok d' ∧ Exact Registry.reg pr0 d'.disk d' ∧ Quiet d' ∧ d'.s.1 = d.s.1 ∧ d'.grid = d.grid ∧ d'.pr = d.pr := by
  have hd := desk_ok (shipped_ok detached) h
  have hi := inv_of_session few_reg warpFirst_reg hd.session
  have hfit := fit_of_session few_reg warpFirst_reg hd.session
  simp only [act, frameStep, if_pos hw]
  by_cases hx : d.s.2.dirty = true
  · obtain ⟨f, s1, s2, _⟩ := saved_exact (d := { d with s := (d.s.1, { d.s.2 with dirty := false }), pending := true }) reg_ok hi hfit hρ hf pr0
    simp only [hx, if_true, Bool.false_eq_true, if_false, s1, Out.bind]
    exact ⟨_, rfl, s2, ⟨rfl, rfl⟩, rfl, rfl, rfl⟩
  · obtain ⟨f, s1, s2, _⟩ := saved_exact reg_ok hi hfit hρ hf pr0
    rw [Bool.not_eq_true] at hx
    simp only [hx, Bool.false_eq_true, if_false, s1, Out.bind]
    exact ⟨_, rfl, s2, ⟨hx, rfl⟩, rfl, rfl, rfl⟩

/-- **C56** Closing the editor leaves a file that is the editor as it was, due or not. -/
theorem C56_closed (detached : Bool) (pr0 : Prefs) (d : Desk) (h : DeskSession (shipped detached) false pr0 d) (ρ : List (Nat × Nat) → List (Nat × Nat)) (hρ : SomeOrder ρ) (fuel : Nat)
    (hf : d.s.1.nodes.length < fuel) : ∃ file, closeDesk false ρ fuel d = .ok file ∧ Exact Registry.reg pr0 file d := by
  have hd := desk_ok (shipped_ok detached) h
  obtain ⟨f, s1, s2, _⟩ := saved_exact reg_ok (inv_of_session few_reg warpFirst_reg hd.session) (fit_of_session few_reg warpFirst_reg hd.session) hρ hf pr0
  exact ⟨f, by simp [closeDesk, s1], s2⟩

/-- **C56** The program may die at any time, also while writing the file, at any character: the editor opens again with what is left of it, with a sound graph. -/
theorem C56_dies (detached cmdline : Bool) (pr0 : Prefs) (d : Desk) (h : DeskSession (shipped detached) cmdline pr0 d) (file : List Section)
    (hfile : file = d.disk ∨ ∃ ρ fuel whole, SomeOrder ρ ∧ d.s.1.nodes.length < fuel ∧ saveDesk ρ fuel d = .ok whole ∧ Cut whole file) (det : Bool) (ρ' : List (Nat × Nat) → List (Nat × Nat)) (hρ' : SomeOrder ρ')
    (fuel' : Nat) (hf : file.length + 1 < fuel') : ∃ ld, load Registry.reg ρ' fuel' det pr0 file = .ok ld ∧ Sound Registry.reg ld.ed := by
  have hd := desk_ok (shipped_ok detached) h
  have hok : FileOk file := by
    rcases hfile with rfl | ⟨ρ, fuel, whole, hρ, hfu, hs, hc⟩
    · exact hd.file
    · have hi := inv_of_session few_reg warpFirst_reg hd.session
      obtain ⟨qs, e1, e2, e3⟩ := writeNodes_spec hi d.grid hρ hfu
      unfold saveDesk save at hs
      rw [e1] at hs
      cases hs
      exact cut_ok hi e2 hc
  obtain ⟨ld, l1, l2, _⟩ := C50_any_file_partial file hok pr0 det ρ' hρ' fuel' hf
  exact ⟨ld, l1, l2⟩

/-- **C56** With a tree given on the command line the settings file of the user's own graph is never touched. -/
theorem C56_command_line (E : Env) (d d' : Desk) (ρ : List (Nat × Nat) → List (Nat × Nat)) (fuel : Nat) (a : Act) (e : act E true ρ fuel d a = .ok d') :
    d'.disk = d.disk ∧ closeDesk true ρ fuel d' = .ok d.disk := by
  have h : d'.disk = d.disk := by
    cases a with
    | op o => simp only [act] at e; obtain ⟨s, _, e2⟩ := out_bind e; cases e2; rfl
    | move g o => simp only [act, Out.ok.injEq] at e; subst e; rfl
    | tune x y z => simp only [act] at e; obtain ⟨s, _, e2⟩ := out_bind e; cases e2; rfl
    | frame ripe detach =>
      simp only [act, frameStep, if_true] at e
      by_cases hw : (d.pending && ripe || detach) = true
      · rw [if_pos hw] at e
        by_cases hx : d.s.2.dirty = true
        · simp only [hx, if_true] at e; split_ifs at e <;> cases e <;> rfl
        · simp only [hx, if_false, Bool.false_eq_true] at e; split_ifs at e <;> cases e <;> rfl
      · rw [if_neg hw] at e
        by_cases hx : d.s.2.dirty = true
        · simp only [hx, if_true] at e; cases e; rfl
        · simp only [hx, if_false, Bool.false_eq_true] at e; cases e; rfl
  exact ⟨h, by simp [closeDesk, h]⟩

/-- **C56** Editing the settings of the node pictures sets these and only these: the nodes on screen, their places, the selection, the grid's offset and the file stay; and the settings are marked as to be written. -/
theorem C56_tuned (E : Env) (cmdline : Bool) (d d' : Desk) (scale seed genType : UInt32) (ρ : List (Nat × Nat) → List (Nat × Nat)) (fuel : Nat)
    (e : act E cmdline ρ fuel d (.tune scale seed genType) = .ok d') :
    d'.pr.scale = scale ∧ d'.pr.seed = seed ∧ d'.pr.genType = genType ∧ d'.pr.offset = d.pr.offset ∧ d'.s.1.nodes = d.s.1.nodes ∧ d'.s.2.selected = d.s.2.selected ∧ d'.s.2.dirty = true ∧ d'.grid = d.grid ∧
      d'.disk = d.disk := by
  simp only [act] at e
  obtain ⟨s, e1, e2⟩ := out_bind e
  cases e2
  simp only [stepV] at e1
  obtain ⟨r, e4, e3⟩ := out_bind e1
  cases e3
  have hs : r.2.selected = d.s.2.selected := loop_same (g := fun s : Arena × View => s.2.selected) (fun q s s' hq => previewV_selected _ _ _ _ hq) _ _ _ e4
  exact ⟨rfl, rfl, rfl, rfl, rfl, hs, rfl, rfl, rfl⟩

/-- **C56** Dragging nodes or panning the grid changes where they are and nothing else. -/
theorem C56_moved (E : Env) (cmdline : Bool) (d d' : Desk) (grid : Grid) (offset : UInt32 × UInt32) (ρ : List (Nat × Nat) → List (Nat × Nat)) (fuel : Nat)
    (e : act E cmdline ρ fuel d (.move grid offset) = .ok d') :
    d'.grid = grid ∧ d'.pr.offset = offset ∧ d'.pr.scale = d.pr.scale ∧ d'.pr.seed = d.pr.seed ∧ d'.pr.genType = d.pr.genType ∧ d'.s = d.s ∧ d'.disk = d.disk ∧ d'.pending = d.pending := by
  simp only [act, Out.ok.injEq] at e
  subst e
  exact ⟨rfl, rfl, rfl, rfl, rfl, rfl, rfl, rfl⟩

/-! ## Examples and counterexamples -/

/-- `Allowed` by evaluation, for the events of the examples. -/
def okAct (fuel : Nat) (d : Desk) : Act → Bool
  | .op (.graph (.delete _)) => true
  | .op o => checkV d.s.1 o
  | .frame _ _ => decide (d.s.1.nodes.length < fuel)
  | _ => true

def runDesk (fuel : Nat) : List Act → Desk → Option Desk
  | [], d => some d
  | a :: as, d => if okAct fuel d a then match act (shipped false) false id fuel d a with
      | .ok d' => if d'.s.1.arena.length < 2 ^ 54 then runDesk fuel as d' else none
      | _ => none
    else none

theorem desk_run {pr0 : Prefs} {fuel : Nat} : ∀ (as : List Act) (d d' : Desk), DeskSession (shipped false) false pr0 d → runDesk fuel as d = some d' → DeskSession (shipped false) false pr0 d' := by
  intro as
  induction as with
  | nil => intro d d' h e; simp only [runDesk] at e; cases e; exact h
  | cons a as ih =>
    intro d d' h e
    rw [runDesk] at e
    split_ifs at e with hc
    split at e
    · rename_i d1 hs
      split_ifs at e with hn
      refine ih d1 d' (.event (fuel := fuel) h (fun l => List.Perm.refl _) ?_ hs hn) e
      cases a with
      | op o =>
        cases o with
        | graph o =>
          cases o with
          | delete i => exact ⟨trivial, fun md h => by cases h⟩
          | addDropped md => simp [okAct, checkV] at hc
          | _ => exact ⟨(calm_of_check (by simpa only [okAct] using hc)).1, fun md h => by cases h⟩
        | _ => exact ⟨trivial, fun md h => by cases h⟩
      | frame r t => simpa [okAct, Allowed] using hc
      | _ => trivial
    · cases e

/-- The editor after its first start: no file, an empty graph. -/
def deskNew : Desk := { s := (init, View.init), grid := exGrid, pr := exPrefs0, disk := [], pending := false }

theorem deskNew_ok : DeskSession (shipped false) false exPrefs0 deskNew := by
  have h : load (shipped false).reg id 20 (shipped false).detached exPrefs0 [] = .ok { ed := init, grid := [], prefs := exPrefs0 } := by decide +kernel
  exact .opened (ld := { ed := init, grid := [], prefs := exPrefs0 }) (v := View.init) rfl (fun s hs => by cases hs) (fun l => List.Perm.refl _) h (by decide) (fun hn => absurd rfl hn)

/-- Constant (id 2), Add (3) of it; the timer starts, and the file is written when it has run out. -/
def deskActs : List Act := [.op (.graph (.add 0)), .op (.graph (.add 21)), .op (.graph (.link 2 3 (startAttr 3) false)), .tune 0x3f800000 7 1, .frame false false, .move exGrid (0, 0), .frame true false]

/-- After these events the editor is quiet, with two nodes on screen and a file of three sections; before the last it was not. -/
example : ∃ d, DeskSession (shipped false) false exPrefs0 d ∧ Quiet d ∧ d.s.1.nodes = [(1, 3), (0, 2)] ∧ d.disk.length = 3 := by
  have h : ((runDesk 20 deskActs deskNew).map fun d => (d.s.2.dirty, d.pending, d.s.1.nodes, d.disk.length)) = some (false, false, [(1, 3), (0, 2)], 3) := by decide +kernel
  obtain ⟨d, h1, h2⟩ := Option.map_eq_some_iff.mp h
  simp only [Prod.mk.injEq] at h2
  exact ⟨d, desk_run deskActs _ d deskNew_ok h1, ⟨h2.1, h2.2.1⟩, h2.2.2.1, h2.2.2.2⟩

/-- One event earlier a write is due, and nothing is on the disk yet. -/
example : ∃ d, DeskSession (shipped false) false exPrefs0 d ∧ ¬ Quiet d ∧ (d.pending && true || false) = true ∧ d.s.1.nodes.length < 20 ∧ d.disk = [] := by
  have h : ((runDesk 20 deskActs.dropLast deskNew).map fun d => (d.pending, d.s.1.nodes.length, d.disk)) = some (true, 2, []) := by decide +kernel
  obtain ⟨d, h1, h2⟩ := Option.map_eq_some_iff.mp h
  simp only [Prod.mk.injEq] at h2
  refine ⟨d, desk_run _ _ d deskNew_ok h1, fun hq => ?_, by rw [h2.1]; rfl, by omega, h2.2.2⟩
  rw [hq.2] at h2
  cases h2.1

/-- Setting the Constant then is a change of a node on screen, and marks. -/
example : ∃ d d' n, DeskSession (shipped false) false exPrefs0 d ∧ act (shipped false) false id 20 d (.op (.graph (.setVar 2 0 0x40000000))) = .ok d' ∧ n ∈ d'.s.1.nodes ∧
    d'.s.1.arena[n.1]? ≠ d.s.1.arena[n.1]? := by
  have h : ((runDesk 20 deskActs deskNew).map fun d => match act (shipped false) false id 20 d (.op (.graph (.setVar 2 0 0x40000000))) with
    | .ok d' => decide ((0, 2) ∈ d'.s.1.nodes ∧ d'.s.1.arena[0]? ≠ d.s.1.arena[0]?)
    | _ => false) = some true := by decide +kernel
  obtain ⟨d, h1, h2⟩ := Option.map_eq_some_iff.mp h
  split at h2
  · rename_i d' hd'
    simp only [decide_eq_true_eq] at h2
    exact ⟨d, d', (0, 2), desk_run deskActs _ d deskNew_ok h1, hd', h2.1, h2.2⟩
  · cases h2

/-- The settings of the pictures edited, and nodes dragged, in an editor with a node on screen: both events complete. -/
example : ∃ d d' d'', DeskSession (shipped false) false exPrefs0 d ∧ d.s.1.nodes ≠ [] ∧ act (shipped false) false id 20 d (.tune 0x3f800000 7 1) = .ok d' ∧
    act (shipped false) false id 20 d' (.move exGrid (0, 1)) = .ok d'' := by
  have h : ((runDesk 20 deskActs deskNew).map fun d => decide (d.s.1.nodes ≠ []) && match act (shipped false) false id 20 d (.tune 0x3f800000 7 1) with
    | .ok _ => true
    | _ => false) = some true := by decide +kernel
  obtain ⟨d, h1, h2⟩ := Option.map_eq_some_iff.mp h
  rw [Bool.and_eq_true, decide_eq_true_eq] at h2
  have h3 := h2.2
  split at h3
  · rename_i d' hd'
    exact ⟨d, d', _, desk_run deskActs _ d deskNew_ok h1, h2.1, hd', rfl⟩
  · cases h3

/-- With a tree on the command line: nodes were added, the timer has run out, the graph is detached; the event completes (and the file, here `exFile`, stays). -/
example : ∃ d d', DeskSession (shipped false) true exPrefs0 { deskNew with disk := exFile } ∧ act (shipped false) true id 20 { deskNew with disk := exFile } (.op (.graph (.add 0))) = .ok d ∧
    d.s.2.dirty = true ∧ d.disk ≠ [] ∧ act (shipped false) true id 20 d (.frame true true) = .ok d' := by
  have h : (match act (shipped false) true id 20 { deskNew with disk := exFile } (.op (.graph (.add 0))) with
    | .ok d => d.s.2.dirty && decide (d.disk ≠ []) && (match act (shipped false) true id 20 d (.frame true true) with | .ok _ => true | _ => false)
    | _ => false) = true := by decide +kernel
  have hok : FileOk exFile := by
    obtain ⟨file, ld, f1, _, _, f2, _⟩ := C50_restores exSt ex_session exGrid exPrefs exPrefs0 false id id (fun l => List.Perm.refl _) (fun l => List.Perm.refl _) 20 (by decide)
    rw [ex_save, Out.ok.injEq] at f1
    rw [f1]; exact f2
  split at h
  · rename_i d hd
    simp only [Bool.and_eq_true, decide_eq_true_eq] at h
    have h3 := h.2
    split at h3
    · rename_i d' hd'
      exact ⟨d, d', .empty rfl hok, hd, h.1.1, h.1.2, hd'⟩
    · cases h3
  · cases h

/-- The file of a quiet editor brings back a node that is not on screen. -/
def returns (d : Desk) : Bool := !d.s.2.dirty && !d.pending && match load Registry.reg id 20 false exPrefs0 d.disk with
  | .ok ld => ld.ed.nodes.any fun n => d.s.1.nodes.all fun m => m.2 ≠ n.2
  | _ => false

theorem of_returns {d : Desk} (h : returns d = true) : Quiet d ∧ ∃ ld n, load Registry.reg id 20 false exPrefs0 d.disk = .ok ld ∧ n ∈ ld.ed.nodes ∧ ∀ m ∈ d.s.1.nodes, m.2 ≠ n.2 := by
  simp only [returns, Bool.and_eq_true, Bool.not_eq_true'] at h
  refine ⟨⟨h.1.1, h.1.2⟩, ?_⟩
  have h2 := h.2
  split at h2
  · rename_i ld hl
    obtain ⟨n, hn, hm⟩ := List.any_eq_true.mp h2
    exact ⟨ld, n, hl, hn, fun m hmm => by simpa using List.all_eq_true.mp hm m hmm⟩
  · cases h2

/-- Finding: deleting a node no other node uses does not mark the settings (`DeleteNode`, 982-1006, makes previews of the users only): if the program dies later, the node is back. -/
theorem C56_deleted_returns : ∃ d, DeskSession (shipped false) false exPrefs0 d ∧ Quiet d ∧ ∃ ld n, load Registry.reg id 20 false exPrefs0 d.disk = .ok ld ∧ n ∈ ld.ed.nodes ∧ ∀ m ∈ d.s.1.nodes, m.2 ≠ n.2 := by
  have h : ((runDesk 20 (deskActs ++ [.op (.graph (.delete 3)), .frame true false, .frame true false]) deskNew).map returns) = some true := by decide +kernel
  obtain ⟨d, h1, h2⟩ := Option.map_eq_some_iff.mp h
  exact ⟨d, desk_run _ _ d deskNew_ok h1, of_returns h2⟩

/-- Finding: "Clear All Nodes" (815-820) does not mark the settings either: if the program dies later, the whole graph is back. -/
theorem C56_cleared_returns : ∃ d, DeskSession (shipped false) false exPrefs0 d ∧ Quiet d ∧ d.s.1.nodes = [] ∧ ∃ ld n, load Registry.reg id 20 false exPrefs0 d.disk = .ok ld ∧ n ∈ ld.ed.nodes := by
  have h : ((runDesk 20 (deskActs ++ [.op (.graph .clear), .frame true false, .frame true false]) deskNew).map fun d => returns d && decide (d.s.1.nodes = [])) = some true := by decide +kernel
  obtain ⟨d, h1, h2⟩ := Option.map_eq_some_iff.mp h
  simp only [Bool.and_eq_true, decide_eq_true_eq] at h2
  obtain ⟨hq, ld, n, a, b, _⟩ := of_returns h2.1
  exact ⟨d, desk_run _ _ d deskNew_ok h1, hq, h2.2, ld, n, a, b⟩

/-- Finding: moving nodes does not mark the settings (nothing in this code base does; ImGui may, for other reasons): a quiet editor whose file has a node at another place. -/
theorem C56_moved_forgotten : ∃ d, DeskSession (shipped false) false exPrefs0 d ∧ Quiet d ∧ ¬ Exact Registry.reg exPrefs0 d.disk d := by
  have h : ((runDesk 20 (deskActs ++ [.move (fun _ => (0x41a00000, 0x41a00000)) (0, 0), .frame true false, .frame true false]) deskNew).map fun d =>
      (d.s.2.dirty, d.pending, decide ((0, 2) ∈ d.s.1.nodes ∧ d.grid 2 = (0x41a00000, 0x41a00000) ∧ d.disk.length = 3), match load Registry.reg id 20 false exPrefs0 d.disk with
        | .ok ld => ld.grid.lookup 2
        | _ => none)) = some (false, false, true, some (0x42ca0000, 0x3f000000)) := by decide +kernel
  obtain ⟨d, h1, h2⟩ := Option.map_eq_some_iff.mp h
  simp only [Prod.mk.injEq, decide_eq_true_eq] at h2
  obtain ⟨a1, a2, ⟨a3, a4, a5⟩, a6⟩ := h2
  refine ⟨d, desk_run _ _ d deskNew_ok h1, ⟨a1, a2⟩, fun he => ?_⟩
  obtain ⟨ld, l1, l2⟩ := he id false 20 (fun l => List.Perm.refl _) (by rw [a5]; decide)
  rw [l1] at a6
  simp only at a6
  obtain ⟨v, v1, v2, _⟩ := l2.place 0 2 a3
  rw [a6] at v1
  cases v1
  have := v2.large
  rw [a4] at this
  have f1 : expField 0x41a00000 = 131 := by decide +kernel
  have f2 : fracField 0x41a00000 = 2097152 := by decide +kernel
  have := this (by show expField 0x41a00000 ≠ 255; rw [f1]; decide) (by show (16 : ℚ) ≤ absVal 0x41a00000; unfold absVal; rw [f1, f2]; norm_num)
  exact absurd this (by decide)

end FastNoise.Editor
