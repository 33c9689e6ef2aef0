import Verif.Prefs
import Verif.EditorFileSpec
/-! Specification vocabulary for the settings of the previews (C53). -/
namespace FastNoise.Prefs
open FastNoise.Editor

/-- The settings of the texture preview. -/
inductive TexSetting where
  | scale | seed | genType | exportSize | relative | filename
deriving DecidableEq

/-- The setting has in `q` what it had in `p`; `rel` compares floats. -/
def TexSetting.same (rel : UInt32 → UInt32 → Prop) (p q : TexPrefs) : TexSetting → Prop
  | .scale => rel p.scale q.scale
  | .seed => q.seed = p.seed
  | .genType => q.genType = p.genType
  | .exportSize => q.exportX = p.exportX ∧ q.exportY = p.exportY
  | .relative => q.relative = p.relative
  | .filename => q.filename = p.filename

/-- The settings of the mesh preview. -/
inductive MeshSetting where
  | triLimit | scale | iso | multiplier | seed | color | meshType | upAxis | enabled
deriving DecidableEq

/-- The setting has in `q` what it had in `p`; `rel` compares floats.  Colours are the same if they are the same three sRGB bytes. -/
def MeshSetting.same {C : Type} (k : Srgb C) (rel : UInt32 → UInt32 → Prop) (p q : MeshPrefs C) : MeshSetting → Prop
  | .triLimit => q.triLimit = p.triLimit
  | .scale => rel p.scale q.scale
  | .iso => rel p.iso q.iso
  | .multiplier => rel p.multiplier q.multiplier
  | .seed => q.seed = p.seed
  | .color => k.toInt q.color = k.toInt p.color
  | .meshType => q.meshType = p.meshType
  | .upAxis => q.upAxis = p.upAxis
  | .enabled => q.enabled = p.enabled

/-- The lines of a section as far as they were written when the program died: some whole lines, then perhaps a part of the next one. -/
def CutLines (lines lines' : List (List Char)) : Prop := lines' <+: lines ∨ ∃ a l b l', lines = a ++ l :: b ∧ l' <+: l ∧ lines' = a ++ [l']

/-- The sections of one handler in a file that may hold those of other handlers before, between and after them. -/
def ofType (type : List Char) (file : List Section) : List Section := file.filter fun s => s.type = type

/-- The sections of the graph of the editor. -/
def ofEditor (file : List Section) : List Section := file.filter fun s => s.type = nodeType ∨ s.type = graphType

end FastNoise.Prefs
