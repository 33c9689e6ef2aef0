import Verif.DeserProps
import Verif.Serialise
/-!
# The demo node trees shipped with the editor

The two texts of tools/NodeEditor/util/DemoNodeTrees.inl, which the editor's Import menu offers (FastNoiseNodeEditor.cpp:1418-1424) and the benchmark builds (FastNoiseBenchmark.cpp:152-165).
The real program wrote them; so besides being a property of the shipped data (the trees can be read, as node data and as generators on every level) they tie the model to the program: model reading
and model writing give them back byte for byte.
-/
namespace FastNoise.Demo
open FastNoise.Deser FastNoise.Registry

def text (s : String) : List UInt8 := s.toList.map fun c => c.toNat.toUInt8

/-- DemoNodeTrees.inl:3-7 -/
def demoTrees : List (String × String) :=
  [("Mountain Terrain", "E@BBZEG@BD8JFgIECArXIzwECiQIw/UoPwkuAAE@BJDQAH@BC@AIEAJBw@ABZEED0KV78YZmZmPwQDmpkZPwsAAIA/HAMAAHBCBA=="),
   ("Cellular Caves", "FgIcCS4AAQ@BklCQs@BlRBDNzMw9G@AIMAgAw@ADgC@BCiQIzczMPgkJ@BPkIQH4XrPhjNzEw/DBIkCM3MzD4JCQ@ADBCCAE@BQzczMvhg@B/JAL/BAAL7FE4PgQKFwkNCQg@CQQQDuB4FPwt7FC4/BAOPwnU8DA==")]

/-- Reading and writing back. -/
def rewritten (t : List UInt8) : Option (List UInt8) :=
  match deserialiseNodeData reg t with
  | .tree root nodes =>
    match Ser.serialise reg false nodes root with
    | .text t' _ => some t'
    | _ => none
  | _ => none

/-- **C54** for the shipped texts: each can be read, and writing what was read gives the same text. -/
theorem C54_demo_trees : ∀ d ∈ demoTrees, rewritten (text d.2) = some (text d.2) := by decide +kernel

/-- Whether a generator could be built. -/
def builds (lvl : Bool) (t : List UInt8) : Bool :=
  match newFromEncodedNodeTree reg classDefaults lvl t with
  | .tree _ _ => true
  | _ => false

/-- **C06** for the shipped texts: `NewFromEncodedNodeTree` returns a generator where the level is supported, so the benchmark's "Could not generate node tree" cannot appear. -/
theorem C06_demo_trees : ∀ d ∈ demoTrees, builds true (text d.2) = true := by decide +kernel

/-- The distance kinds, octaves and so on of the shipped trees are values the program offers: the first tree is a warp over a sum of a ramp along y and a FBm of 7 octaves. -/
example : (match deserialiseNodeData reg (text (demoTrees.map (·.2)).head!) with
    | .tree root nodes => (root, nodes.map (·.md)) | _ => (0, [])) = (6, [some 4, some 7, some 13, some 46, some 36, some 22, some 16]) := by decide +kernel

end FastNoise.Demo
