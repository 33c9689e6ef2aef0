import Mathlib.Data.List.Basic
/-!
# Display names

Model of `Metadata::FormatMetadataNodeName` and `FormatMetadataMemberName` (src/FastNoise/Metadata.cpp:634-684).
Strings are lists of characters; `isdigit`, `isupper`, `islower` are those of the "C" locale (ASCII), as `Char.isDigit`, `Char.isUpper`, `Char.isLower`.
-/
namespace FastNoise.Names

abbrev Str := List Char

/-- The condition of Metadata.cpp:647. -/
def isBreak (prev c : Char) : Bool := (c.isDigit || c.isUpper) && prev.isLower

/-- The loop of Metadata.cpp:645-651; `string.insert( i++, 1, ' ' )` followed by `i++`. -/
def fmtLoop (i : Nat) (s : Str) : Str :=
  if h : i < s.length then
    if isBreak (s[i - 1]'(by omega)) s[i] then fmtLoop (i + 2) (s.insertIdx i ' ') else fmtLoop (i + 1) s
  else s
termination_by s.length - i
decreasing_by
  · rw [List.length_insertIdx_of_le_length (by omega)]; omega
  · omega

/-- `std::string::find`: the first position at which `g` occurs. -/
def find (g : Str) : Str → Option Nat
  | [] => if g.isPrefixOf [] then some 0 else none
  | c :: s => if g.isPrefixOf (c :: s) then some 0 else (find g s).map (· + 1)

/-- One iteration of the loop of Metadata.cpp:656-663: `string.erase( start_pos, strlen( group ) + 1 )`. -/
def removeGroup (s g : Str) : Str :=
  match find g s with
  | some p => s.take p ++ s.drop (p + (g.length + 1))
  | none => s

/-- The members of `Metadata` that matter here: Metadata.h:276-290. -/
structure Meta where
  name : Str
  formattedName : Option Str
  groups : List Str

/-- `FormatMetadataNodeName`: Metadata.cpp:634-673. -/
def nodeName (m : Meta) (removeGroups : Bool) : Str :=
  let s := match m.formattedName with
    | some f => f
    | none => fmtLoop 1 m.name
  let s := if removeGroups then m.groups.foldl removeGroup s else s
  if s.isEmpty then m.name else s

/-- `kDim_Strings`: Generator.h:30-33 -/
def dimStrings : List Str := [['X'], ['Y'], ['Z'], ['W']]

/-- `FormatMetadataMemberName`: Metadata.cpp:675-684.  `none` is the undefined behaviour of reading past `kDim_Strings`. -/
def memberName (name : Str) (dimensionIdx : Int) : Option Str :=
  if 0 ≤ dimensionIdx then (dimStrings[dimensionIdx.toNat]?).map fun d => d ++ (' ' :: name) else some name

end FastNoise.Names
