import Verif.DeserSpec
import Mathlib.Logic.Relation

/-! Specification vocabulary for serialising node-data graphs (C03, C04, C05, C09, C10).  Nothing here
refers to how the serialiser or the decoders work. -/
namespace FastNoise.Spec
open FastNoise.Ser FastNoise.Deser

/-- Node `p` is reached from `root` by following sources and hybrid sources. -/
def Reach (A : Arena) (root p : Nat) : Prop := Relation.ReflTransGen (LinkND A) root p

/-- No node reached from the root is reachable from itself. -/
def AcyclicFrom (A : Arena) (root : Nat) : Prop := ∀ p, Reach A root p → ¬ Relation.TransGen (LinkND A) p p

/-- Memory safety of the caller's graph: every reached pointer leads to a live node and every non-null
metadata pointer leads to registered metadata. -/
def PointersValid (reg : Reg) (A : Arena) (root : Nat) : Prop :=
  ∀ p, Reach A root p → ∃ nd, A[p]? = some nd ∧ ∀ id, nd.md = some id → ∃ m, reg[id]? = some m

/-- Node `p` is complete: it has metadata, member lists of the sizes the metadata demands, and every
required source is set. -/
def Complete (reg : Reg) (A : Arena) (p : Nat) : Prop :=
  ∃ nd id m, A[p]? = some nd ∧ nd.md = some id ∧ reg[id]? = some m ∧ nd.vars.length = m.vars.length ∧
    nd.lookups.length = m.lookups.length ∧ nd.hybrids.length = m.hybrids.length ∧ none ∉ nd.lookups

/-- At most `n` nodes are reached from the root. -/
def AtMost (n : Nat) (A : Arena) (root : Nat) : Prop :=
  ∃ l : List Nat, l.length ≤ n ∧ ∀ p, Reach A root p → p ∈ l

/-- The same float: the same bits, or two zeros (`-0.0` and `0.0`). -/
def SameFloat (a b : UInt32) : Prop :=
  a = b ∨ ((a = 0 ∨ a = 0x80000000) ∧ (b = 0 ∨ b = 0x80000000))

/-- `n'` is a copy of `n` whose sources are renamed by `φ`: same type, same variable bits, same sources,
and for each hybrid the same source or, without a source, the same value. -/
def CopyOf (φ : Nat → Nat) (n n' : NodeData) : Prop :=
  n'.md = n.md ∧ n'.vars = n.vars ∧ n'.lookups = n.lookups.map (Option.map φ) ∧
    n'.hybrids.length = n.hybrids.length ∧
    ∀ (i : Nat) (h h' : Option Nat × UInt32), n.hybrids[i]? = some h → n'.hybrids[i]? = some h' →
      h'.1 = h.1.map φ ∧ (h.1 = none → SameFloat h'.2 h.2)

/-- The graph `B` with root `root'` is the graph reached from `root` in `A`, node for node: a renaming that
is one-to-one (so exactly the shared nodes are shared) and onto (no extra nodes). -/
def SameTree (A : Arena) (root : Nat) (B : List NodeData) (root' : Nat) : Prop :=
  ∃ φ : Nat → Nat, φ root = root' ∧
    (∀ p q, Reach A root p → Reach A root q → φ p = φ q → p = q) ∧
    (∀ p n, Reach A root p → A[p]? = some n → ∃ n', B[φ p]? = some n' ∧ CopyOf φ n n') ∧
    (∀ k, k < B.length → ∃ p, Reach A root p ∧ φ p = k)

/-- `g` is the generator one gets by creating a node of `n`'s type and applying every setter by hand:
every variable set to `n`'s value, every source set, every hybrid set to its source or its value. -/
def HandBuilt (φ : Nat → Nat) (n : NodeData) (g : Gen) : Prop :=
  n.md = some g.id ∧ g.vars = n.vars ∧ g.lookups = n.lookups.map (Option.map fun c => Src.node (φ c)) ∧
    g.hybrids.length = n.hybrids.length ∧
    ∀ (i : Nat) (h : Option Nat × UInt32) (h' : Option Src × UInt32), n.hybrids[i]? = some h →
      g.hybrids[i]? = some h' →
      h'.1 = h.1.map (fun c => Src.node (φ c)) ∧ (h.1 = none → SameFloat h'.2 h.2)

/-- The generator graph `B` is the hand-built version of the graph reached from `root`. -/
def SameGenTree (A : Arena) (root : Nat) (B : List Gen) (root' : Nat) : Prop :=
  ∃ φ : Nat → Nat, φ root = root' ∧
    (∀ p q, Reach A root p → Reach A root q → φ p = φ q → p = q) ∧
    (∀ p n, Reach A root p → A[p]? = some n → ∃ g, B[φ p]? = some g ∧ HandBuilt φ n g) ∧
    (∀ k, k < B.length → ∃ p, Reach A root p ∧ φ p = k)

/-- Every reached source is of the kind its slot requires (a domain warp fractal has a domain warp). -/
def SourcesFit (reg : Reg) (A : Arena) (root : Nat) : Prop :=
  ∀ p (i : Nat) c nd nc id cid m k mc, Reach A root p → A[p]? = some nd → nd.md = some id → reg[id]? = some m →
    m.lookups[i]? = some k → nd.lookups[i]? = some (some c) → A[c]? = some nc → nc.md = some cid →
    reg[cid]? = some mc → k = .warp → mc.isWarp = true

/-- Wherever a reached node's value equals the metadata default, the freshly constructed generator also has
that value. -/
def DefaultsAgree (reg : Reg) (cd : List ClassDefaults) (A : Arena) (root : Nat) : Prop :=
  ∀ p nd id m c, Reach A root p → A[p]? = some nd → nd.md = some id → reg[id]? = some m → cd[id]? = some c →
    (∀ (i : Nat) v d, nd.vars[i]? = some v → m.vars[i]? = some d → v = d → c.vars[i]? = some d) ∧
    c.hybrids = m.hybrids

end FastNoise.Spec
