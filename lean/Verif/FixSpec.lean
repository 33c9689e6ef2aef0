import Verif.TreeSpec

/-! Specification vocabulary for fixUp (C10).  Independent of how the serialiser works. -/
namespace FastNoise.Spec
open FastNoise.Ser FastNoise.Deser

/-- The link from `p` to `c` lies on a cycle (following links leads from `c` back to `p`), in the part of the
graph reached from the root. -/
def OnCycle (A : Arena) (root p c : Nat) : Prop := Reach A root p ∧ LinkND A p c ∧ Reach A c p

/-- Source slot `i` of the reached node `p` holds `c`, but only takes domain warps and `c` is not one. -/
def WrongKind (reg : Reg) (A : Arena) (root p i c : Nat) : Prop :=
  Reach A root p ∧ ∃ n id m nc cid mc, A[p]? = some n ∧ n.md = some id ∧ reg[id]? = some m ∧
    m.lookups[i]? = some .warp ∧ n.lookups[i]? = some (some c) ∧
    A[c]? = some nc ∧ nc.md = some cid ∧ reg[cid]? = some mc ∧ mc.isWarp = false

/-- `A'` is `A` with some links removed and nothing else changed.  A source `c` in slot `i` of node `p` is
removed only if `J p i c`, a hybrid source only if `K p c`. -/
def OnlyRemoved (J : Nat → Nat → Nat → Prop) (K : Nat → Nat → Prop) (A A' : Arena) : Prop :=
  A'.length = A.length ∧ ∀ (p : Nat) n n', A[p]? = some n → A'[p]? = some n' →
    n'.md = n.md ∧ n'.vars = n.vars ∧ n'.lookups.length = n.lookups.length ∧
    n'.hybrids.length = n.hybrids.length ∧
    (∀ (i : Nat) l l', n.lookups[i]? = some l → n'.lookups[i]? = some l' →
      l' = l ∨ (l' = none ∧ ∃ c, l = some c ∧ J p i c)) ∧
    (∀ (i : Nat) h h', n.hybrids[i]? = some h → n'.hybrids[i]? = some h' →
      h' = h ∨ (h' = (none, h.2) ∧ ∃ c, h.1 = some c ∧ K p c))

/-- Every node reached from the root has registered metadata. -/
def HasMetadata (reg : Reg) (A : Arena) (root : Nat) : Prop :=
  ∀ p, Reach A root p → ∃ nd id m, A[p]? = some nd ∧ nd.md = some id ∧ reg[id]? = some m

end FastNoise.Spec
