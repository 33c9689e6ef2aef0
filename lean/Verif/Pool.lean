/-! # The node memory allocator (src/FastNoise/SmartNode.cpp)

Interleaving model of `SmartNodeMemoryAllocator`: lock free bump allocation in pools (packed 64 bit state, compare-exchange
loop), a mutex for adding and removing pools, unsynchronised traversal of the pool list.  Any number of threads; every step
contains one access to shared atomic state (steps under the mutex are merged when they touch only data protected by it).
Reading a pool whose memory has been given back is the outcome `none`.

Simplifications: addresses are unbounded naturals (no address overflow); `malloc` never returns null; sequentially consistent
interleavings; `mPools` (a plain pointer read without the lock) is read atomically. -/

namespace FastNoise.Pool

/-- Size of the pool header `sizeof( SmartNodeManagerPool )` (two 8 byte atomics and a `uint32_t`, SmartNode.cpp:100-102). -/
def hdr : Nat := 24

/-- SmartNode.cpp:14-103: one pool.  `base` = `GetPool()` (95-98), `size` = `mPoolSize`, `cap` the number of bytes really
available behind the header (ghost), `next`/`active` the two halves of `mAllocState`. -/
structure Pool where
  base : Nat
  size : Nat
  cap : Nat
  next : Nat
  active : Nat
  nxt : Option Nat
  alive : Bool
  deriving DecidableEq

/-- A block handed out and not yet freed (ghost). -/
structure Block where
  pool : Nat
  addr : Nat
  size : Nat
  align : Nat
  deriving DecidableEq

/-- Round `p` up to a multiple of `a` (the bit mask of `std::align` for a power of two). -/
def alignUp (a p : Nat) : Nat := (p + a - 1) / a * a

/-- `std::align` as used in SmartNode.cpp:49: none if the aligned block does not fit. -/
def stdAlign (align size ptr space : Nat) : Option Nat :=
  if space < size then none
  else if space - size < alignUp align ptr - ptr then none
  else some (alignUp align ptr)

/-- Subtraction of `uint32_t`. -/
def sub32 (a b : Nat) : Nat := (a + 2 ^ 32 - b) % 2 ^ 32

/-- SmartNode.cpp:41-58, the body of the loop of `TryAlloc` for a loaded state `e` = (next free index, active count):
the address and the new state. -/
def tryCompute (p : Pool) (e : Nat × Nat) (size align : Nat) : Option (Nat × Nat × Nat) :=
  let start := if e.2 ≠ 0 then p.base + e.1 else p.base
  let space := if e.2 ≠ 0 then sub32 p.size e.1 else p.size
  match stdAlign align size start space with
  | none => none
  | some a => some (a, (a + size - p.base) % 2 ^ 32, (e.2 + 1) % 2 ^ 32)

/-- SmartNode.cpp:24-30 `Contains`: `nextFreeIndex - 1` is computed in `uint32_t`. -/
def contains (p : Pool) (a : Nat) : Bool := p.base ≤ a && a < p.base + (p.next + (2 ^ 32 - 1)) % 2 ^ 32

/-- SmartNode.cpp:67 `mAllocState.fetch_sub( 1 )` on the packed state. -/
def fetchSub (p : Pool) : Pool :=
  if p.active = 0 then { p with active := 2 ^ 32 - 1, next := (p.next + (2 ^ 32 - 1)) % 2 ^ 32 } else { p with active := p.active - 1 }

/-- Where a thread is.
* `scan`: `AllocFromPools` (177-191) about to look at pool `cur`; `locked`: the second call, under the mutex (117-122)
* `cas`: in the loop of `TryAlloc` with loaded state `e`
* `freeAt`: `Free` (153-174) about to look at pool `cur`; `freeSub`: `Contains` said yes (65-67)
* `rm0`, `rmLoop`, `rmLock`: `RemoveEmptyPool` (193-227) -/
inductive Pc where
  | idle
  | scan (size align : Nat) (cur : Option Nat) (locked : Bool)
  | cas (size align : Nat) (p : Nat) (e : Nat × Nat) (locked : Bool)
  | freeAt (addr : Nat) (cur : Option Nat)
  | freeSub (addr : Nat) (p : Nat)
  | rm0
  | rmLoop (pool : Nat) (empty : Bool)
  | rmLock (pool victim : Nat)
  deriving DecidableEq

/-- `newSize` = `sNewPoolSize` (108), `head` = `mPools` (229), `lock` = `mMutex` (230). -/
structure St (T : Nat) where
  pools : Nat → Pool
  count : Nat
  head : Option Nat
  lock : Option (Fin T)
  newSize : Nat
  pc : Fin T → Pc
  blocks : List Block

variable {T : Nat}

def upd {α : Type} {β : Type} [DecidableEq α] (f : α → β) (a : α) (b : β) : α → β := fun x => if x = a then b else f x

def St.init : St T := ⟨fun _ => ⟨0, 0, 0, 0, 0, none, false⟩, 0, none, none, 64 * 1024, fun _ => .idle, []⟩

def St.setPc (s : St T) (t : Fin T) (c : Pc) : St T := { s with pc := upd s.pc t c }
def St.setPool (s : St T) (p : Nat) (v : Pool) : St T := { s with pools := upd s.pools p v }
def St.addBlock (s : St T) (b : Block) : St T := { s with blocks := b :: s.blocks }
def St.unlockIf (s : St T) (l : Bool) : St T := if l then { s with lock := none } else s

/-- SmartNode.cpp:134-137: walk to the last pool of the list (under the mutex). -/
def lastPool (s : St T) : Nat → Nat → Option Nat
  | 0, _ => none
  | fuel + 1, p =>
    if (s.pools p).alive then
      match (s.pools p).nxt with
      | none => some p
      | some q => lastPool s fuel q
    else none

/-- SmartNode.cpp:17-19 and 126: `min( sNewPoolSize - (uint32_t)sizeof( SmartNodeManagerPool ), INT32_MAX )`. -/
def newPoolSize (n : Nat) : Nat := min (sub32 n hdr) (2 ^ 31 - 1)

/-- SmartNode.cpp:131-146: link the new pool `p1` at the end of the list, return (releasing the mutex). -/
def linkPool (s : St T) (t : Fin T) (p1 : Pool) (bs : List Block) : Option (St T) :=
  let s1 : St T := { s with
    pools := upd s.pools s.count p1
    count := s.count + 1
    lock := none
    pc := upd s.pc t .idle
    blocks := bs }
  match s.head with
  | none => some { s1 with head := some s.count }
  | some h =>
    match lastPool s (s.count + 1) h with
    | none => none
    | some l => some (s1.setPool l { s1.pools l with nxt := some s.count })

/-- SmartNode.cpp:17-19: a fresh pool. -/
def mkPool (base size cap : Nat) : Pool := ⟨base, size, cap, 0, 0, none, true⟩

/-- SmartNode.cpp:128-146: allocate from the fresh pool `p0` (a request that does not fit yields a null pointer) and link it. -/
def newPoolAt (s : St T) (t : Fin T) (size align : Nat) (p0 : Pool) : Option (St T) :=
  match tryCompute p0 (p0.next, p0.active) size align with
  | none => linkPool s t p0 s.blocks
  | some (a, n, c) => linkPool s t { p0 with next := n, active := c } (⟨s.count, a, size, align⟩ :: s.blocks)

/-- SmartNode.cpp:124-148: allocate a pool of `sNewPoolSize` bytes at address `base - hdr`, allocate from it, link it.
`sNewPoolSize - (uint32_t)sizeof( SmartNodeManagerPool )` wraps; the constructor
(17-19) limits the size to `INT32_MAX`. -/
def newPool (s : St T) (t : Fin T) (size align base : Nat) : Option (St T) :=
  newPoolAt s t size align (mkPool base (newPoolSize s.newSize) (max hdr s.newSize - hdr))

/-- One step of thread `t`.  `spur`: spurious failure of the weak compare-exchange; `base`: what `malloc` returns. -/
def run (s : St T) (t : Fin T) (spur : Bool) (base : Nat) : Option (St T) :=
  match s.pc t with
  | .idle => some s
  | .scan size align (some p) locked =>
    if (s.pools p).alive then some (s.setPc t (.cas size align p ((s.pools p).next, (s.pools p).active) locked)) else none
  | .scan size align none false =>
    match s.lock with
    | none => some ({ s with lock := some t }.setPc t (.scan size align s.head true))
    | some _ => some s
  | .scan size align none true => newPool s t size align base
  | .cas size align p e locked =>
    if (s.pools p).alive then
      match tryCompute (s.pools p) e size align with
      | none => some (s.setPc t (.scan size align (s.pools p).nxt locked))
      | some (a, n, c) =>
        if e = ((s.pools p).next, (s.pools p).active) ∧ spur = false then
          some ((((s.setPool p { s.pools p with next := n, active := c }).addBlock ⟨p, a, size, align⟩).setPc t .idle).unlockIf locked)
        else some (s.setPc t (.cas size align p ((s.pools p).next, (s.pools p).active) locked))
    else none
  | .freeAt _ none => none
  | .freeAt addr (some p) =>
    if (s.pools p).alive then
      if contains (s.pools p) addr then some (s.setPc t (.freeSub addr p)) else some (s.setPc t (.freeAt addr (s.pools p).nxt))
    else none
  | .freeSub addr p =>
    if (s.pools p).alive then
      let s1 := s.setPool p (fetchSub (s.pools p))
      if (s.pools p).active = 0 then some (s1.setPc t (.freeAt addr (s.pools p).nxt))
      else
        let s2 := { s1 with blocks := s1.blocks.filter fun b => b.addr ≠ addr }
        if (s.pools p).active = 1 then some (s2.setPc t .rm0) else some (s2.setPc t .idle)
    else none
  | .rm0 =>
    match s.head with
    | none => none
    | some p => if (s.pools p).alive then some (s.setPc t (.rmLoop p (decide ((s.pools p).active = 0)))) else none
  | .rmLoop p empty =>
    if (s.pools p).alive then
      match (s.pools p).nxt with
      | none => some (s.setPc t .idle)
      | some q =>
        if (s.pools q).alive then
          if (s.pools q).active = 0 then
            if empty then some (s.setPc t (.rmLock p q)) else some (s.setPc t (.rmLoop q true))
          else some (s.setPc t (.rmLoop q empty))
        else none
    else none
  | .rmLock p q =>
    match s.lock with
    | some _ => some s
    | none =>
      if (s.pools q).alive then
        if (s.pools q).active = 0 then
          if (s.pools p).alive then
            some (((s.setPool p { s.pools p with nxt := (s.pools q).nxt }).setPool q { s.pools q with alive := false }).setPc t .idle)
          else none
        else some (s.setPc t .idle)
      else none

/-- Calls of the allocator (SmartNode.cpp:235-248), and going on with the current call. -/
inductive Act where
  | alloc (size align : Nat)
  | free (addr : Nat)
  | setPoolSize (n : Nat)
  | run (spur : Bool) (base : Nat)

def exec (s : St T) (t : Fin T) : Act → Option (St T)
  | .alloc size align => some (s.setPc t (.scan size align s.head false))
  | .free addr => some (s.setPc t (.freeAt addr s.head))
  | .setPoolSize n => some { s with newSize := n }
  | .run spur base => run s t spur base

/-- Address ranges `[a, a+n)` and `[b, b+m)` do not overlap. -/
def Disjoint (a n b m : Nat) : Prop := a + n ≤ b ∨ b + m ≤ a

/-- The contract of `malloc`: fresh memory. -/
def mallocOK (s : St T) (base : Nat) : Prop :=
  ∀ p, (s.pools p).alive = true → Disjoint base (max hdr s.newSize - hdr) (s.pools p).base (s.pools p).cap

def Pc.freeing : Pc → Option Nat
  | .freeAt a _ => some a
  | .freeSub a _ => some a
  | _ => none

/-- What clients owe: requests of at least two bytes and at most `R` bytes including alignment slack, pool sizes that can hold
a request of `R` bytes, each block freed once.  (`malloc` keeps its contract.) -/
def legal (R : Nat) (s : St T) (t : Fin T) : Act → Prop
  | .alloc size align => s.pc t = .idle ∧ 2 ≤ size ∧ 0 < align ∧ size + align ≤ R
  | .free addr => s.pc t = .idle ∧ (∃ b ∈ s.blocks, b.addr = addr) ∧ ∀ u, (s.pc u).freeing ≠ some addr
  | .setPoolSize n => s.pc t = .idle ∧ hdr + R ≤ n ∧ n < 2 ^ 31
  | .run _ base => s.pc t ≠ .idle ∧ mallocOK s base

/-- Any interleaving of any legal calls. -/
inductive Reach (R : Nat) : St T → Prop
  | init : Reach R St.init
  | step {s s' : St T} (t : Fin T) (a : Act) : Reach R s → legal R s t a → exec s t a = some s' → Reach R s'

end FastNoise.Pool
