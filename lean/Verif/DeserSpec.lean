import Verif.Registry

/-! Specification vocabulary for deserialised trees, independent of how the decoder works. -/
namespace FastNoise.Spec
open FastNoise.Ser FastNoise.Deser

/-- Node `p` of a decoded node-data tree uses node `c` as a source or hybrid source. -/
def LinkND (nodes : List NodeData) (p c : Nat) : Prop :=
  ∃ n, nodes[p]? = some n ∧ (some c ∈ n.lookups ∨ ∃ v, (some c, v) ∈ n.hybrids)

/-- Generator `p` of a decoded generator tree uses generator `c` as a source or hybrid source. -/
def LinkGen (nodes : List Gen) (p c : Nat) : Prop :=
  ∃ n, nodes[p]? = some n ∧ (some (Src.node c) ∈ n.lookups ∨ ∃ v, (some (Src.node c), v) ∈ n.hybrids)

/-- No node is reachable from itself. -/
def Acyclic (link : Nat → Nat → Prop) : Prop := ∀ p, ¬ Relation.TransGen link p p

/-- A decoded node-data tree is usable: the root exists, every node has a registered type and exactly
that type's numbers of members, and every link leads to a node of the tree. -/
structure ValidND (reg : Reg) (root : Nat) (nodes : List NodeData) : Prop where
  root : root < nodes.length
  shape : ∀ n ∈ nodes, ∃ id m, n.md = some id ∧ reg[id]? = some m ∧ n.vars.length = m.vars.length ∧
    n.lookups.length = m.lookups.length ∧ n.hybrids.length = m.hybrids.length
  links : ∀ p c, LinkND nodes p c → c < nodes.length

/-- A decoded generator tree is usable (sources may be missing, see C08). -/
structure ValidGen (reg : Reg) (root : Nat) (nodes : List Gen) : Prop where
  root : root < nodes.length
  shape : ∀ n ∈ nodes, ∃ m, reg[n.id]? = some m ∧ n.vars.length = m.vars.length ∧
    n.lookups.length = m.lookups.length ∧ n.hybrids.length = m.hybrids.length
  links : ∀ p c, LinkGen nodes p c → c < nodes.length

/-- Source `s` may be plugged into a slot of kind `k`: any generator fits an `any` slot, only domain warps
fit a `warp` slot; the placeholder constant fits `any` slots only. -/
def Fits (reg : Reg) (nodes : List Gen) (k : Kind) (s : Src) : Prop :=
  match s with
  | .dummy => k = .any
  | .node c => ∃ g m, nodes[c]? = some g ∧ reg[g.id]? = some m ∧ (k = .warp → m.isWarp = true)

/-- Source slot `i` of `n` holds a source of the right kind. -/
def SlotOK (reg : Reg) (nodes : List Gen) (n : Gen) (i : Nat) : Prop :=
  ∃ m k s, reg[n.id]? = some m ∧ m.lookups[i]? = some k ∧ n.lookups[i]? = some (some s) ∧
    Fits reg nodes k s

end FastNoise.Spec
