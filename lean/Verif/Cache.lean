/-! # GeneratorCache (include/FastNoise/Generators/Modifiers.inl:278-320)

The cache is one `thread_local static` record per dimension (and SIMD level) shared by **all** cache nodes of a thread.
Nodes other than caches are arbitrary programs that query their sources (any number of times, adaptively). -/

namespace FastNoise.Cache

/-- The arguments of one `Gen` call: per lane the seed, per coordinate and lane the bit pattern of the float. -/
structure Key where
  seed : List Int
  pos : List (List UInt32)
  deriving DecidableEq

def Key.dim (k : Key) : Nat := k.pos.length

/-- IEEE equality of two floats given by their bit patterns: NaN equals nothing, the two zeros are equal. -/
def feq (a b : UInt32) : Bool :=
  let isNaN := fun (x : UInt32) => decide ((x &&& 0x7fffffff) > 0x7f800000)
  if isNaN a || isNaN b then false
  else if (a &&& 0x7fffffff) = 0 && (b &&& 0x7fffffff) = 0 then true
  else a = b

/-- Modifiers.inl:293-299: `isSame` without the comparison of the generator pointers. -/
def sameKey (a b : Key) : Bool :=
  decide (a.seed = b.seed) && decide (a.pos.length = b.pos.length) &&
    (a.pos.zip b.pos).all fun (x, y) => decide (x.length = y.length) && (x.zip y).all fun (u, v) => feq u v

variable {V : Type}

/-- How a node computes its value from `n` sources: finish, or ask source `i` for its value somewhere. -/
inductive Prog (V : Type) (n : Nat) where
  | ret (v : V)
  | ask (i : Fin n) (key : Key) (k : V → Prog V n)

/-- Node trees.  `cache addr src`: a GeneratorCache whose source object lives at address `addr`. -/
inductive Tree (V : Type) where
  | node (n : Nat) (src : Fin n → Tree V) (prog : Key → Prog V n)
  | cache (addr : Nat) (src : Tree V)

/-- Modifiers.inl:286-289: `CachedGenerator`, (`CachedSeed`, `CachedPos`), `CachedValue`. -/
structure Entry (V : Type) where
  gen : Nat
  key : Key
  val : V

/-- The cache records of a thread: one per dimension. -/
abbrev Caches (V : Type) := Nat → Entry V

def set (c : Caches V) (d : Nat) (e : Entry V) : Caches V := fun x => if x = d then e else c x

def Prog.run {n : Nat} (f : Fin n → Key → Caches V → V × Caches V) : Prog V n → Caches V → V × Caches V
  | .ret v, c => (v, c)
  | .ask i key k, c =>
    let r := f i key c
    Prog.run f (k r.1) r.2

/-- `Gen` of a tree with its effect on the cache records.  The cache case is Modifiers.inl:293-317: the generator pointer is stored
*before* the source is evaluated, value, seed and position after. -/
def Tree.gen : Tree V → Key → Caches V → V × Caches V
  | .node _ src prog, key, c => Prog.run (fun i => (src i).gen) (prog key) c
  | .cache addr src, key, c =>
    if (c key.dim).gen = addr ∧ sameKey key (c key.dim).key = true then ((c key.dim).val, c)
    else
      let c1 := set c key.dim { c key.dim with gen := addr }
      let r := src.gen key c1
      (r.1, set r.2 key.dim { r.2 key.dim with key := key, val := r.1 })

/-- The records of a fresh thread (`lanes` = SIMD width): null pointer and zeros. -/
def fresh (lanes : Nat) (zero : V) : Caches V := fun d => ⟨0, ⟨List.replicate lanes 0, List.replicate d (List.replicate lanes 0)⟩, zero⟩

/-- A sequence of queries of any trees by one thread: the values returned. -/
def history (c : Caches V) : List (Tree V × Key) → List V
  | [] => []
  | (t, k) :: l => (t.gen k c).1 :: history (t.gen k c).2 l

end FastNoise.Cache
