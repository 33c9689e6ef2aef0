import Verif.EditorFile
import Verif.TreeSpec
/-! Specification vocabulary for the node editor (C34, C35).  Independent of how the operations work. -/
namespace FastNoise.Editor
open FastNoise.Ser FastNoise.Deser FastNoise.Spec

/-- The node data `p` belongs to a node shown in the editor. -/
def Shown (st : Ed) (p : Nat) : Prop := ∃ id, (p, id) ∈ st.nodes

/-- What every later operation relies on. -/
structure Sound (reg : Reg) (st : Ed) : Prop where
  /-- the data of every shown node exists, with as many members as its type has -/
  alive : ∀ p, Shown st p → ∃ nd id m, st.arena[p]? = some nd ∧ nd.md = some id ∧ reg[id]? = some m ∧
    nd.vars.length = m.vars.length ∧ nd.lookups.length = m.lookups.length ∧ nd.hybrids.length = m.hybrids.length
  /-- no dangling link: a link of a shown node leads to a shown node -/
  linked : ∀ p c, Shown st p → LinkND st.arena p c → Shown st c
  /-- no node depends on itself -/
  acyclic : ∀ p, Shown st p → ¬ Relation.TransGen (LinkND st.arena) p p
  /-- one id per node, one node per id -/
  unique : ∀ p q i j, (p, i) ∈ st.nodes → (q, j) ∈ st.nodes → (p = q ↔ i = j)
  /-- ids are positive and leave room for the attribute bits in an `int` -/
  range : ∀ p i, (p, i) ∈ st.nodes → 1 ≤ i ∧ i * 256 + 255 < 2 ^ 31

/-- What the user interface can ask for in a state: pins, members and popup entries are those of the nodes shown (FastNoiseNodeEditor.cpp:1080-1300, 1474-1479). -/
def Possible (reg : Reg) (st : Ed) : Op → Prop
  | .link _ e attr _ => ∀ p nd, (p, e) ∈ st.nodes → st.arena[p]? = some nd → ∃ k, k < nd.lookups.length + nd.hybrids.length ∧ attr = startAttr e + k
  | .addEncoded text => ∀ c ∈ text, c ≠ 0
  | .setVar id i _ => ∀ p nd, (p, id) ∈ st.nodes → st.arena[p]? = some nd → i < nd.vars.length
  | .setHybrid id i _ => ∀ p nd, (p, id) ∈ st.nodes → st.arena[p]? = some nd → i < nd.hybrids.length
  | .addDropped md => ∀ m, reg[md]? = some m → 0 < m.lookups.length + m.hybrids.length
  | _ => True

/-- The source of the last dropped link has not been deleted since. -/
def DropAlive (st : Ed) : Prop := ∀ p, st.dropped = some p → Shown st p

def IsAddDropped : Op → Prop
  | .addDropped _ => True
  | _ => False

/-- A hash table iterates over its entries in some order. -/
def SomeOrder (ρ : List (Nat × Nat) → List (Nat × Nat)) : Prop := ∀ l, (ρ l).Perm l

/-- The line sets `key`. -/
def Starts (key : String) (line : List Char) : Prop := key.toList <+: line

/-- The sections of a settings file that are about nodes set no members after the id, and give ids that leave room for the attribute bits.  Nothing else is asked of the file:
types, members, links and their number are arbitrary. -/
def FileOk (file : List Section) : Prop := ∀ s ∈ file, s.type = nodeType →
  (∀ pre line post, s.lines = pre ++ line :: post → Starts "id=" line → ∀ l ∈ post, ¬ Starts "variable=" l ∧ ¬ Starts "node=" l ∧ ¬ Starts "hybrid=" l ∧ ¬ Starts "id=" l) ∧
  ∀ line ∈ s.lines, ∀ v, scan1D "id=".toList line = some v → 1 ≤ v.toNat ∧ v.toNat * 256 + 255 < 2 ^ 31

/-- The states an editing session can be in, for any hash table order, if no dropped link is used after its source was deleted.  It starts with an empty graph or with what a settings
file brings. -/
inductive Session (reg : Reg) : Ed → Prop
  | start : Session reg init
  | opened {file ld ρ fuel detached prefs} : FileOk file → SomeOrder ρ → load reg ρ fuel detached prefs file = .ok ld → Session reg ld.ed
  | step {st st' op ρ fuel} : Session reg st → SomeOrder ρ → Possible reg st op → (IsAddDropped op → DropAlive st) →
      step reg ρ fuel st op = .ok st' → Session reg st'

/-- No shown node leads to two different users of `x`. -/
def OneUserPath (st : Ed) (x : Nat) : Prop := ∀ n m d, LinkND st.arena n x → LinkND st.arena m x → Reach st.arena d n → Reach st.arena d m → n = m

/-- How many nodes an operation adds. -/
def adds (reg : Reg) : Op → Nat
  | .add _ => 1
  | .addDropped _ => 1
  | .addEncoded text => match deserialiseNodeData reg text with
    | .tree _ nds => nds.length
    | _ => 0
  | _ => 0

/-- Several operations. -/
def run (reg : Reg) (ρ : List (Nat × Nat) → List (Nat × Nat)) (fuel : Nat) : List Op → Ed → Out Ed
  | [], st => .ok st
  | op :: ops, st => (step reg ρ fuel st op).bind (run reg ρ fuel ops)

end FastNoise.Editor
