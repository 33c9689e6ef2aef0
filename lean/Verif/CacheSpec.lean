import Verif.Cache

/-! # What the value of a tree is without caches -/

namespace FastNoise.Cache

variable {V : Type}

def Prog.value {n : Nat} (f : Fin n → Key → V) : Prog V n → V
  | .ret v => v
  | .ask i key k => (k (f i key)).value f

/-- The value of a tree when every GeneratorCache is replaced by its source. -/
def Tree.value : Tree V → Key → V
  | .node _ src prog, key => (prog key).value fun i => (src i).value
  | .cache _ src, key => src.value key

/-- Holds for every GeneratorCache in the tree. -/
def Tree.AllCaches (P : Nat → Tree V → Prop) : Tree V → Prop
  | .node _ src _ => ∀ i, (src i).AllCaches P
  | .cache addr src => P addr src ∧ src.AllCaches P

/-- No GeneratorCache anywhere. -/
def Tree.CacheFree : Tree V → Prop := Tree.AllCaches fun _ _ => False

/-- Every cache has a real source object, the object at an address computes one function, and that function does not tell `-0.0`
from `0.0`. -/
def Tree.Sound (obj : Nat → Key → V) (t : Tree V) : Prop :=
  t.AllCaches fun addr src => addr ≠ 0 ∧ src.value = obj addr ∧ ∀ k k', sameKey k k' = true → obj addr k = obj addr k'

/-- Whatever values the sources return, the program asks only for things that satisfy `g`. -/
def Prog.Asks {n : Nat} (g : Fin n → Key → Prop) : Prog V n → Prop
  | .ret _ => True
  | .ask i key k => g i key ∧ ∀ v, (k v).Asks g

/-- One more cache of dimension `d` around. -/
def deeper (lev : Nat → Nat) (d : Nat) : Nat → Nat := fun x => if x = d then lev x + 1 else lev x

/-- Evaluating the tree at `key` meets the cache with source `addr` in dimension `d` always inside the same number `depth addr d` of
other caches evaluated in that dimension.  `lev` = the numbers of caches around the tree itself. -/
def Tree.Graded (depth : Nat → Nat → Nat) : Tree V → (Nat → Nat) → Key → Prop
  | .node _ src prog, lev, key => (prog key).Asks fun i k => (src i).Graded depth lev k
  | .cache addr src, lev, key => depth addr key.dim = lev key.dim ∧ src.Graded depth (deeper lev key.dim) key

/-- No cache below a cache. -/
def Tree.NotNested : Tree V → Prop := Tree.AllCaches fun _ src => src.CacheFree

end FastNoise.Cache
