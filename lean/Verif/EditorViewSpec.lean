import Verif.EditorView
import Verif.EditorSpec
/-! Specification vocabulary for what the editor remembers and shows (C55).  Independent of how the caches are kept up to date. -/
namespace FastNoise.Editor
open FastNoise.Ser FastNoise.Deser FastNoise.Spec

/-- Every node on screen carries the encoded text of the tree below it, as it is now. -/
def Current (reg : Reg) (s : Ed × View) : Prop := ∀ p, Shown s.1 p → serialise reg false s.1.arena p = .text (s.2.text p) s.1.arena

/-- The tree `t` is the one in use: it is the active one, the one last sent to other programs and (unless the graph is detached from them) the one in the texture and mesh previews. -/
def InUse (detached : Bool) (t : List UInt8) (v : View) : Prop := v.active = t ∧ v.sent.head? = some t ∧ (detached = false → v.picture = t)

/-- If a node is selected (and its tree is complete, so that it has a text), its text is the one in use. -/
def Synced (detached : Bool) (s : Ed × View) : Prop := ∀ p, s.2.selected = some p → Shown s.1 p → s.2.text p ≠ [] → InUse detached (s.2.text p) s.2

/-- What the theorems ask of an operation: a new link closes no cycle; a node is deleted only if no node leads to two users of it; a domain warp in use as such is not converted to something
else; the source of a dropped link still exists. -/
def Calm (reg : Reg) (st : Ed) : OpV → Prop
  | .graph (.link a b _ _) => ∀ ps pe, (ps, a) ∈ st.nodes → (pe, b) ∈ st.nodes → ¬ Reach st.arena ps pe
  | .graph (.delete id) => ∀ p, (p, id) ∈ st.nodes → OneUserPath st p
  | .graph (.convert id md _) => ∀ (p : Nat) (m : Meta) (q i : Nat) (nq : NodeData) (idq : Nat) (mq : Meta), (p, id) ∈ st.nodes → reg[md]? = some m → Shown st q → st.arena[q]? = some nq →
      nq.md = some idq → reg[idq]? = some mq → mq.lookups[i]? = some Kind.warp → nq.lookups[i]? = some (some p) → m.isWarp = true
  | .graph (.addDropped _) => DropAlive st
  | _ => True

/-- What the user interface can ask for. -/
def PossibleV (reg : Reg) (st : Ed) : OpV → Prop
  | .graph op => Possible reg st op
  | _ => True

/-- The states of a session that starts with an empty graph, for any order of the hash table, with at most 65536 nodes on screen (and less than 2^54 ever made). -/
inductive SessionV (E : Env) : Ed × View → Prop
  | start : SessionV E (init, View.init)
  | step {s s' op ρ fuel} : SessionV E s → SomeOrder ρ → PossibleV E.reg s.1 op → Calm E.reg s.1 op → stepV E ρ fuel s op = .ok s' →
      s'.1.nodes.length ≤ 65536 → s'.1.arena.length < 2 ^ 54 → SessionV E s'

/-- The shipped library. -/
def shipped (detached : Bool) : Env := { reg := Registry.reg, cd := Registry.classDefaults, detached := detached }

/-- Several operations. -/
def runV (E : Env) (ρ : List (Nat × Nat) → List (Nat × Nat)) (fuel : Nat) : List OpV → Ed × View → Out (Ed × View)
  | [], s => .ok s
  | op :: ops, s => (stepV E ρ fuel s op).bind (runV E ρ fuel ops)

end FastNoise.Editor
