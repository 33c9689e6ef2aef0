import Verif.EditorAutosave
import Verif.EditorFileSpec
import Verif.EditorViewSpec
/-! Specification vocabulary for writing the settings file (C56).  Independent of when it is written. -/
namespace FastNoise.Editor
open FastNoise.Ser FastNoise.Deser FastNoise.Spec

/-- Opening the editor with `file` (in any iteration order, with defaults `pr0`) brings back every node on screen, as it is: same id, type, variables, links, and constants up to what a
settings file keeps; and the settings of the node pictures.  There may be more nodes in the file. -/
def Holds (reg : Reg) (pr0 : Prefs) (file : List Section) (d : Desk) : Prop := ∀ (ρ : List (Nat × Nat) → List (Nat × Nat)) (detached : Bool) (fuel : Nat), SomeOrder ρ → file.length + 1 < fuel →
  ∃ ld, load reg ρ fuel detached pr0 file = .ok ld ∧
    (∀ p id nd, (p, id) ∈ d.s.1.nodes → d.s.1.arena[p]? = some nd → ∃ p' nd', (p', id) ∈ ld.ed.nodes ∧ ld.ed.arena[p']? = some nd' ∧ SameNode SavedValue d.s.1.nodes ld.ed.nodes nd nd') ∧
    ld.prefs.seed = d.pr.seed ∧ ld.prefs.genType = d.pr.genType ∧ SavedValue d.pr.scale ld.prefs.scale

/-- The file is the editor as it is: opening it brings back exactly the nodes on screen, where they are, and all settings. -/
def Exact (reg : Reg) (pr0 : Prefs) (file : List Section) (d : Desk) : Prop := ∀ (ρ : List (Nat × Nat) → List (Nat × Nat)) (detached : Bool) (fuel : Nat), SomeOrder ρ → file.length + 1 < fuel →
  ∃ ld, load reg ρ fuel detached pr0 file = .ok ld ∧ Restored SavedValue d.s.1 d.grid { d.pr with selected := d.s.2.selected } pr0 detached ld

/-- No write is due. -/
def Quiet (d : Desk) : Prop := d.s.2.dirty = false ∧ d.pending = false

/-- What an event needs: operations the user interface offers, no dropped link whose source is gone; and a stack deep enough to write the graph. -/
def Allowed (reg : Reg) (fuel : Nat) (d : Desk) : Act → Prop
  | .op o => PossibleV reg d.s.1 o ∧ (∀ md, o = .graph (.addDropped md) → DropAlive d.s.1)
  | .frame _ _ => d.s.1.nodes.length < fuel
  | _ => True

/-- The states of the editor from its start: without a tree on the command line it opens a file (`[]`: none) - creating its nodes marks the settings as dirty (460, 116-131, 195) and
nothing is known about its caches -, otherwise it starts empty.  (Less than 2^54 nodes ever made.) -/
inductive DeskSession (E : Env) (cmdline : Bool) (pr0 : Prefs) : Desk → Prop
  | opened {file ld ρ fuel v grid} : cmdline = false → FileOk file → SomeOrder ρ → load E.reg ρ fuel E.detached pr0 file = .ok ld → ld.ed.arena.length < 2 ^ 54 → (ld.ed.nodes ≠ [] → v.dirty = true) →
      DeskSession E cmdline pr0 { s := (ld.ed, v), grid := grid, pr := ld.prefs, disk := file, pending := false }
  | empty {file grid} : cmdline = true → FileOk file → DeskSession E cmdline pr0 { s := (init, View.init), grid := grid, pr := pr0, disk := file, pending := false }
  | event {d d' a ρ fuel} : DeskSession E cmdline pr0 d → SomeOrder ρ → Allowed E.reg fuel d a → act E cmdline ρ fuel d a = .ok d' → d'.s.1.arena.length < 2 ^ 54 → DeskSession E cmdline pr0 d'

end FastNoise.Editor
