import Verif.EditorFile
import Verif.EditorSpec
import Mathlib.Algebra.Order.Ring.Rat
import Mathlib.Algebra.Order.Field.Basic
/-! Specification vocabulary for the editor's settings file (C50).  Independent of how the file is written and read. -/
namespace FastNoise.Editor
open FastNoise.Ser FastNoise.Deser FastNoise.Spec

/-! ## Floats (IEEE 754 binary32) -/

/-- The sign bit. -/
def isNeg (v : UInt32) : Prop := 2 ^ 31 ≤ v.toNat
/-- The biased exponent. -/
def expField (v : UInt32) : Nat := v.toNat / 2 ^ 23 % 256
/-- The fraction bits. -/
def fracField (v : UInt32) : Nat := v.toNat % 2 ^ 23

def IsFin (v : UInt32) : Prop := expField v ≠ 255
def IsInf (v : UInt32) : Prop := expField v = 255 ∧ fracField v = 0
def IsNan (v : UInt32) : Prop := expField v = 255 ∧ fracField v ≠ 0

/-- The absolute value of a finite float. -/
def absVal (v : UInt32) : ℚ :=
  if expField v = 0 then (fracField v : ℚ) / 2 ^ 149 else ((2 ^ 23 + fracField v : Nat) : ℚ) * 2 ^ expField v / 2 ^ 150

/-- What becomes of a float that was saved: same sign; within a millionth, and unchanged from 16 on; infinities unchanged; NaN still NaN. -/
structure SavedValue (v v' : UInt32) : Prop where
  sign : isNeg v' ↔ isNeg v
  fin : IsFin v → IsFin v'
  near : IsFin v → |absVal v' - absVal v| ≤ 1 / 1000000
  large : IsFin v → 16 ≤ absVal v → v' = v
  inf : IsInf v → v' = v
  nan : IsNan v → IsNan v'

/-! ## Graphs -/

/-- Two pointers (or null) into two editors mean nodes with the same id. -/
def SameLink (nodes nodes' : List (Nat × Nat)) : Option Nat → Option Nat → Prop
  | none, none => True
  | some c, some c' => ∃ id, (c, id) ∈ nodes ∧ (c', id) ∈ nodes'
  | _, _ => False

/-- Two nodes of two editors have the same type, variables and links, and values related by `rel` in their hybrid sources. -/
structure SameNode (rel : UInt32 → UInt32 → Prop) (nodes nodes' : List (Nat × Nat)) (nd nd' : NodeData) : Prop where
  type : nd'.md = nd.md
  vars : nd'.vars = nd.vars
  lookups : List.Forall₂ (SameLink nodes nodes') nd.lookups nd'.lookups
  hybrids : List.Forall₂ (fun h h' => SameLink nodes nodes' h.1 h'.1 ∧ rel h.2 h'.2) nd.hybrids nd'.hybrids

/-- The second editor shows the same nodes as the first, with the same ids. -/
structure SameGraph (rel : UInt32 → UInt32 → Prop) (st st' : Ed) : Prop where
  ids : ∀ id, (∃ p, (p, id) ∈ st.nodes) ↔ ∃ p', (p', id) ∈ st'.nodes
  nodes : ∀ id p p', (p, id) ∈ st.nodes → (p', id) ∈ st'.nodes →
    ∃ nd nd', st.arena[p]? = some nd ∧ st'.arena[p']? = some nd' ∧ SameNode rel st.nodes st'.nodes nd nd'

/-- What the editor shows after it was closed and opened again. -/
structure Restored (rel : UInt32 → UInt32 → Prop) (st : Ed) (grid : Grid) (pr pr0 : Prefs) (detached : Bool) (ld : Ld) : Prop where
  graph : SameGraph rel st ld.ed
  /-- the nodes are where they were -/
  place : ∀ p id, (p, id) ∈ st.nodes → ∃ v, ld.grid.lookup id = some v ∧ rel (grid id).1 v.1 ∧ rel (grid id).2 v.2
  offset : rel pr.offset.1 ld.prefs.offset.1 ∧ rel pr.offset.2 ld.prefs.offset.2
  scale : rel pr.scale ld.prefs.scale
  seed : ld.prefs.seed = pr.seed
  genType : ld.prefs.genType = pr.genType
  /-- with a detached graph the selected node is selected again -/
  selected : detached = true → ∀ p id, pr.selected = some p → (p, id) ∈ st.nodes → ∃ p', ld.prefs.selected = some p' ∧ (p', id) ∈ ld.ed.nodes
  /-- nothing is selected that was not -/
  unselected : (detached = false ∨ ∀ p, pr.selected = some p → ¬ Shown st p) → ld.prefs.selected = pr0.selected

/-- The file as far as it was written when the program died: the last section may lack lines, and its last line may be cut off. -/
def Cut (file file' : List Section) : Prop := file' <+: file ∨
  ∃ pre s post a l b l', file = pre ++ s :: post ∧ s.lines = a ++ l :: b ∧ l' <+: l ∧ (file' = pre ++ [{ s with lines := a }] ∨ file' = pre ++ [{ s with lines := a ++ [l'] }])

/-- The section was written to its end: it is in the whole file and in the cut one, at the same place. -/
def Whole (file file' : List Section) (s : Section) : Prop := ∃ pre, pre ++ [s] <+: file ∧ pre ++ [s] <+: file'

/-- Every float the file holds: constants of hybrid inputs, positions, panning, scale. -/
structure AllValues (P : UInt32 → Prop) (st : Ed) (grid : Grid) (pr : Prefs) : Prop where
  hybrids : ∀ p nd h, Shown st p → st.arena[p]? = some nd → h ∈ nd.hybrids → P h.2
  places : ∀ p id, (p, id) ∈ st.nodes → P (grid id).1 ∧ P (grid id).2
  offset : P pr.offset.1 ∧ P pr.offset.2
  scale : P pr.scale

/-- The text of a number with six decimals. -/
def SixDecimals (text : List Char) : Prop := ∃ (sign : List Char) (whole part : Nat), (sign = [] ∨ sign = ['-']) ∧ part < 10 ^ 6 ∧ text = sign ++ dec whole ++ '.' :: six part

/-- A value that is kept exactly: it was typed in with up to six decimals, or is at least 16 in size. -/
def Kept (v : UInt32) : Prop := (∃ text, SixDecimals text ∧ scanF text = some (v, [])) ∨ (IsFin v ∧ 16 ≤ absVal v) ∨ IsInf v

end FastNoise.Editor
