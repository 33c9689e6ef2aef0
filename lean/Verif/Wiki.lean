import Verif.Registry
import Verif.Names
import Verif.Texture
import Verif.FloatModifiers
/-!
# The wiki generator

Model of util/WikiGenerator/main.cpp, the program that writes the node reference of the project's wiki from the metadata.  Strings are lists of characters.

Not modelled: the file system (every file can be opened and written), ImageMagick, and the wording of the descriptions (a parameter; the registry has none).
-/
namespace FastNoise.Wiki
open FastNoise.Ser FastNoise.Registry
open FastNoise.Names (Str)

/-! ## Building a generator to show -/

/-- A generator made by `BuildGenerator`: the class, whether it is a domain warp, and its sources in the order of the metadata; `none` is a source that was never set. -/
inductive Gen where
  | mk (node : String) (isWarp : Bool) (srcs : List (Option Gen))

def Gen.node : Gen → String | .mk n _ _ => n
def Gen.isWarp : Gen → Bool | .mk _ w _ => w
def Gen.srcs : Gen → List (Option Gen) | .mk _ _ s => s

/-- main.cpp:18-19: the constant 0.5 every source is first tried with. -/
def source : Gen := .mk "Constant" false []

/-- What `setFunc` returns for a node of the right class: the `dynamic_cast` of the source, Generator.h:636-648. -/
def accepts : Kind → Gen → Bool
  | .any, _ => true
  | .warp, g => g.isWarp

/-- How the loop over all node types (main.cpp:26-42) ends: with a source, with the `return {}` of line 37, or without a node that fits. -/
inductive Try where
  | found (g : Gen)
  | giveUp
  | nothing

/-- The loop over all node types for a source that does not take a constant: main.cpp:26-42.  `build` is the recursive call, `none` that it does not return.  Lines 33-39 set all sources of the node
just attached again; it is the same object, so the generator sees that. -/
def tryAll (build : NodeDef → Option (Option Gen)) (k : Kind) : List NodeDef → Option Try
  | [] => some .nothing
  | m :: ms =>
    match build m with
    | none => none
    | some none => tryAll build k ms
    | some (some t) =>
      if accepts k t then
        if (srcsOf m.evs).all fun s => accepts s.kind source then
          some (.found (.mk t.node t.isWarp ((srcsOf m.evs).map fun _ => some source)))
        else some .giveUp
      else tryAll build k ms

/-- The loop over the sources of the node: main.cpp:21-44. -/
def setSources (build : NodeDef → Option (Option Gen)) (all : List NodeDef) : List SrcDef → Option (Option (List (Option Gen)))
  | [] => some (some [])
  | s :: ss =>
    if accepts s.kind source then (setSources build all ss).map fun r => r.map fun l => some source :: l
    else
      match tryAll build s.kind all with
      | none => none
      | some .giveUp => some none
      | some .nothing => (setSources build all ss).map fun r => r.map fun l => none :: l
      | some (.found g) => (setSources build all ss).map fun r => r.map fun l => some g :: l

/-- `BuildGenerator`: main.cpp:14-46.  `depth` is the number of calls the stack has room for; the outer `none` is a stack overflow, `some none` the null node. -/
def build (all : List NodeDef) : Nat → NodeDef → Option (Option Gen)
  | 0, _ => none
  | depth + 1, m => (setSources (build all depth) all (srcsOf m.evs)).map fun r => r.map fun l => .mk m.name m.isWarp l

/-! ## Descriptions -/

/-- `std::string::find( '\n', pos )` -/
def findNl (s : Str) (pos : Nat) : Option Nat := ((s.drop pos).findIdx? (· == '\n')).map (· + pos)

/-- "<br/>" -/
def br : Str := ['<', 'b', 'r', '/', '>']

/-- The loop of `FormatDescription`: main.cpp:143-147.  The first argument bounds the iterations (`descriptionSteps` are enough: `C65_description`). -/
def descLoop : Nat → Nat → Str → Str
  | 0, _, s => s
  | n + 1, pos, s =>
    match findNl s pos with
    | none => s
    | some p => descLoop n (p + 6) (s.take p ++ br ++ s.drop p)

/-- Iterations given to the loop: one more than the text has characters. -/
def descriptionSteps (s : Str) : Nat := s.length + 1

/-- `FormatDescription`: main.cpp:138-150. -/
def formatDescription (s : Str) : Str := descLoop (descriptionSteps s) 0 s

/-! ## Pages -/

/-- A member as its heading shows it (main.cpp:164-191): the words after `###`, and the kind of member. -/
inductive Heading where
  | lookup (name : Str)
  | hybrid (name : Str) (dflt : UInt32)
  | float (name : Str) (dflt : UInt32)
  | int (name : Str) (dflt : UInt32)
  | enum (name : Str) (dflt : Str)
deriving DecidableEq

/-- The name in the heading. -/
def Heading.name : Heading → Str
  | .lookup n | .hybrid n _ | .float n _ | .int n _ | .enum n _ => n

/-- `dimensionIdx` -/
def dimIdx : Option Nat → Int
  | none => -1
  | some d => d

/-- The headings of the variables: main.cpp:174-191.  `none`: `FormatMetadataMemberName` or `enumNames[...]` reads past its array. -/
def varHeading (v : VarDef) : Option Heading := do
  let n ← Names.memberName v.name.toList (dimIdx v.dim)
  match v.type with
  | .float => pure (.float n v.dflt)
  | .int => pure (.int n v.dflt)
  | .enum => do
    let e ← v.enums[v.dflt.toNat]?
    pure (.enum n e.toList)

/-- The headings `DoNode` writes for a node, in order: main.cpp:152-194.  Node lookups and hybrids are written with the bare name, variables with the dimension in front. -/
def headings (m : NodeDef) : Option (List Heading) := do
  let vs ← (varsOf m.evs).mapM varHeading
  pure ((srcsOf m.evs).map (fun s => .lookup s.name.toList) ++ (hybsOf m.evs).map (fun h => .hybrid h.name.toList h.dflt) ++ vs)

/-- The title of a node's section and the name of its picture: main.cpp:154-161. -/
def title (m : NodeDef) : Str := Names.nodeName { name := m.name.toList, formattedName := none, groups := (groupsOf m.evs).map String.toList } false

/-- The text streams by group name (`unordered_map`), each as the list of nodes written to it after the title `# group`: a list with one entry per key. -/
abbrev Streams := List (String × List NodeDef)

/-- main.cpp:213-220: `try_emplace`, then `DoNode` to the stream of the group. -/
def addTo (g : String) (m : NodeDef) : Streams → Streams
  | [] => [(g, [m])]
  | (h, l) :: r => if h = g then (h, l ++ [m]) :: r else (h, l) :: addTo g m r

/-- The loop of main.cpp:209-222; `none` is the read of `groups[0]` of a node without a group. -/
def pagesFrom : Streams → List NodeDef → Option Streams
  | s, [] => some s
  | s, m :: ms =>
    match (groupsOf m.evs)[0]? with
    | none => none
    | some g => pagesFrom (addTo g m s) ms

/-- The pages of the wiki: main.cpp:207-222. -/
def pages (all : List NodeDef) : Option Streams := pagesFrom [] all

/-- The name of a page's file, after "Nodes#-" and before ".md": main.cpp:226-227. -/
def pageFile (g : String) : Str := g.toList.map fun c => if c = ' ' then '-' else c

/-! ## Pictures -/

noncomputable section

/-- The grey of a sample: main.cpp:66, 113.  The cast to `unsigned char` drops the fraction. -/
def pixel (min max noise : ℝ) : ℤ :=
  let scale := F32.div 255 (F32.sub max min)
  ⌊Max.max 0 (Min.min (F32.mul (F32.sub noise min) scale) 255)⌋

/-- The file of a picture of `w` × `h` samples: main.cpp:62-126 (there 256 × 256), the same statements as NoiseTexture.cpp:372-425. -/
def picture (w h : Nat) (min max : ℝ) (noise : List ℝ) : List UInt8 :=
  Texture.bmp w h (noise.map fun v => UInt32.ofInt (pixel min max v))

/-- `std::fixed`, `precision( 1 )` (main.cpp:216-217): the number printed for a float default. -/
def printed (d : ℝ) : ℝ := Num.roundEven (d * 10) / 10

end

/-- The value of a finite binary32 number given by its bits. -/
def bitsVal (b : UInt32) : Rat :=
  let m : Rat := ((b.toNat % 2 ^ 23 : Nat) : Rat)
  let e : Nat := b.toNat / 2 ^ 23 % 256
  let v := if e = 0 then m * (2 : Rat) ^ (-149 : Int) else (2 ^ 23 + m) * (2 : Rat) ^ ((e : Int) - 150)
  if b.toNat / 2 ^ 31 = 1 then -v else v

/-- The command that converts a picture: main.cpp:128-130. -/
def convertCmd (tempFile outDir nodeName : Str) : Str :=
  "magick \"".toList ++ tempFile ++ ("\" \"".toList ++ outDir ++ "/images/".toList ++ nodeName ++ ".png".toList)

end FastNoise.Wiki
