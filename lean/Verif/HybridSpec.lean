import Verif.Hybrid
/-!
# Specification of hybrid inputs (C23)

Everything here is a function of the history of assignments only; it does not mention the state of
the node.
-/
namespace FastNoise.Hybrid

/-- The assignments of a history that addressed input `i`, oldest first. -/
def addressed (i : Nat) (h : List (Nat × Op K V)) : List (Op K V) :=
  (h.filter fun e => e.1 = i).map (·.2)

/-- The constant an assignment supplies, if any. -/
def Op.const? : Op K V → Option V
  | .const v | .apiFloat v => some v
  | _ => none

/-- The most recent constant, or the default of the input. -/
def lastConst (dflt : V) (l : List (Op K V)) : V :=
  (l.reverse.findSome? Op.const?).getD dflt

/-- An API call with a null source is rejected; everything else takes effect. -/
def Op.effective : Op K V → Bool
  | .apiNode none => false
  | _ => true

/-- The source the user expects to be connected: that of the last effective assignment, if this was
a non-null source. -/
def connected (l : List (Op K V)) : Option (Gen K V) :=
  match (l.filter Op.effective).getLast? with
  | some (.source g) => g
  | some (.apiNode g) => g
  | _ => none

/-- The value a query must see. -/
def expected (dflt : V) (l : List (Op K V)) (k : K) : V :=
  match connected l with
  | some g => g.eval k
  | none => lastConst dflt l

/-- All sources of a history were created for SIMD level `lvl`. -/
def SameLevel (lvl : Nat) (h : List (Nat × Op K V)) : Prop :=
  ∀ i g, ((i, Op.source (some g)) ∈ h ∨ (i, Op.apiNode (some g)) ∈ h) → g.level = lvl

end FastNoise.Hybrid
