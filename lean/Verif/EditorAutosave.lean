import Verif.EditorView
import Verif.EditorFile
/-!
# When the node editor writes its settings file

Model of `mSettingsDirty` and of the places where `FastNoiseNodeEditor` writes the settings file (tools/NodeEditor/FastNoiseNodeEditor.cpp:855-895, 621-635), beside the graph
(`Editor.lean`), the caches (`EditorView.lean`) and the text of the file (`EditorFile.lean`).

ImGui is outside the code base; what is used of it: `MarkIniSettingsDirty` starts a timer if none runs; when it has run out, `WantSaveIniSettings` is set at the start of some later frame and stays
set; `SaveIniSettingsToDisk` replaces the file and stops the timer.  (The context of the node graph keeps no settings file of its own.)
-/
namespace FastNoise.Editor
open FastNoise.Ser FastNoise.Deser FastNoise.Stream

/-- The running editor: graph and caches, places of the nodes, the other settings (`selected` is in the caches), the settings file, and whether ImGui's timer runs or has run out. -/
structure Desk where
  s : Ed × View
  grid : Grid
  pr : Prefs
  disk : List Section
  pending : Bool

/-- `SaveIniSettingsToDisk( kNodeGraphSettingsFile )` with the handlers of the editor (371-542). -/
def saveDesk (ρ : List (Nat × Nat) → List (Nat × Nat)) (fuel : Nat) (d : Desk) : Out (List Section) :=
  save ρ fuel d.s.1 d.grid { d.pr with selected := d.s.2.selected }

/-- What happens between two events: an operation, dragged nodes or a panned grid, an edited setting of the node pictures, or the settings part of `Draw`. -/
inductive Act where
  | op (o : OpV)
  /-- ImNodes moves nodes or the grid; the editor is not told -/
  | move (grid : Grid) (offset : UInt32 × UInt32)
  /-- `mNodeGenType`, `mNodeSeed`, `mNodeScale` edited in the menu: 768-792 -/
  | tune (scale seed genType : UInt32)
  /-- the settings part of a frame; `ripe`: ImGui's timer has run out, `detach`: "Detach Node Graph" was clicked -/
  | frame (ripe detach : Bool)

/-- FastNoiseNodeEditor.cpp:870-889.  `cmdline` = `GetInitialNodeTree() != nullptr` -/
def frameStep (cmdline : Bool) (ρ : List (Nat × Nat) → List (Nat × Nat)) (fuel : Nat) (ripe detach : Bool) (d : Desk) : Out Desk :=
  let want := d.pending && ripe
  -- 870-874
  let d1 : Desk := if d.s.2.dirty then { d with s := (d.s.1, { d.s.2 with dirty := false }), pending := true } else d
  -- 875-889
  if want || detach then
    if cmdline then .ok (if want then { d1 with pending := d.s.2.dirty } else d1)
    else (saveDesk ρ fuel d1).bind fun file => .ok { d1 with disk := file, pending := false }
  else .ok d1

/-- One event. -/
def act (E : Env) (cmdline : Bool) (ρ : List (Nat × Nat) → List (Nat × Nat)) (fuel : Nat) (d : Desk) : Act → Out Desk
  | .op o => (stepV E ρ fuel d.s o).bind fun s => .ok { d with s := s }
  | .move grid offset => .ok { d with grid := grid, pr := { d.pr with offset := offset } }
  | .tune scale seed genType => (stepV E ρ fuel d.s .settings).bind fun s => .ok { d with s := s, pr := { d.pr with scale := scale, seed := seed, genType := genType } }
  | .frame ripe detach => frameStep cmdline ρ fuel ripe detach d

/-- The destructor of the editor: FastNoiseNodeEditor.cpp:621-635.  The file it leaves. -/
def closeDesk (cmdline : Bool) (ρ : List (Nat × Nat) → List (Nat × Nat)) (fuel : Nat) (d : Desk) : Out (List Section) :=
  if cmdline then .ok d.disk else saveDesk ρ fuel d

end FastNoise.Editor
