import Verif.TreeSpec
/-! Specification vocabulary for "the text is a canonical name of the design" (C54).  Independent of how the serialiser works. -/
namespace FastNoise.Spec
open FastNoise.Ser FastNoise.Deser

/-- The same setting of an unlinked hybrid: the same bits, or both equal (as floats) to the default of the type. -/
def SameSetting (d v v' : UInt32) : Prop := v = v' ∨ (feq v d = true ∧ feq v' d = true)

/-- `n'` is set up like `n`, its sources renamed by `φ`: same type, same variable bits, same sources, and for each hybrid the same source or, without one, the same setting.
(The constant behind a linked hybrid is not part of the design.) -/
def SameNode (reg : Reg) (φ : Nat → Nat) (n n' : NodeData) : Prop :=
  n'.md = n.md ∧ n'.vars = n.vars ∧ n'.lookups = n.lookups.map (Option.map φ) ∧ n'.hybrids.length = n.hybrids.length ∧
    ∀ (id : Nat) (m : Meta) (i : Nat) (h h' : Option Nat × UInt32) (d : UInt32), n.md = some id → reg[id]? = some m → m.hybrids[i]? = some d →
      n.hybrids[i]? = some h → n'.hybrids[i]? = some h' → h'.1 = h.1.map φ ∧ (h.1 = none → SameSetting d h.2 h'.2)

/-- The graphs below `root` and `root'` are the same design: a one-to-one correspondence of their nodes that preserves roots, types, settings and links - so exactly the shared nodes are
shared. -/
def SameDesign (reg : Reg) (A : Arena) (root : Nat) (B : Arena) (root' : Nat) : Prop :=
  ∃ φ : Nat → Nat, φ root = root' ∧
    (∀ p q, Reach A root p → Reach A root q → φ p = φ q → p = q) ∧
    (∀ p n, Reach A root p → A[p]? = some n → ∃ n', B[φ p]? = some n' ∧ SameNode reg φ n n') ∧
    (∀ k, Reach B root' k → ∃ p, Reach A root p ∧ φ p = k)

/-- A tree that has a text: valid pointers, no cycle, every node complete, at most 65536 nodes. -/
structure Encodable (reg : Reg) (A : Arena) (root : Nat) : Prop where
  pointers : PointersValid reg A root
  acyclic : AcyclicFrom A root
  complete : ∀ p, Reach A root p → Complete reg A p
  small : AtMost 65536 A root

end FastNoise.Spec
