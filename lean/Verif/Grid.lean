import Mathlib.Order.BoundedOrder.Basic
import Mathlib.Order.Lattice

/-!
# Batch generation (`include/FastNoise/Generators/Generator.inl`)

Model of `GenUniformGrid2D/3D/4D`, `GenTileable2D`, `GenPositionArray2D/3D/4D`, `GenSingle2D/3D/4D`
with their helpers `AxisReset`, `LoadRemaining` and `StoreRemaining`.

* A SIMD register is a function from lane number (`0 .. N-1`) to lane value; `N` (`ElementCount`,
  Generator.inl:10-13) is any positive number.
* int32 lanes are `Int` with an explicit wrap (`w32`) after every addition and subtraction.
* Float arithmetic is a parameter (`FOps`): no property of it is assumed, so statements about sample
  positions hold bit for bit.  Comparison of outputs (min/max) is a linear order with top and bottom
  (`kInfinity`, `-kInfinity`), i.e. outputs are assumed not to be NaN.
* A node's `Gen` is assumed to work lane by lane: it is a function of the position in that lane (and of
  the seed, which is fixed during one call and therefore not shown).
* Undefined behaviour and non termination are outcomes of type `Err`.
-/

namespace FastNoise.Grid

/-- What can go wrong in a batch call. -/
inductive Err
  | infiniteLoop   -- `AxisReset` never ends
  | intOverflow    -- signed `int` multiplication overflows (undefined behaviour)
  | badAccess      -- read or write outside the caller's buffers (undefined behaviour)
deriving DecidableEq, Repr

/-- The float operations used for sample positions; arbitrary functions. -/
structure FOps (F : Type) where
  /-- `FS::Convert<float>( int )` -/
  conv : Int → F
  /-- `FS::FMulAdd( a, b, c )` -/
  fma : F → F → F → F
  add : F → F → F
  mul : F → F → F
  cos : F → F
  sin : F → F

/-- A SIMD register: lane number to lane value. -/
abbrev Lanes (T : Type) := Nat → T

/-- Two's complement wrap of int32 lane arithmetic. -/
def w32 (x : Int) : Int := Int.bmod x (2 ^ 32)

/-- The product of two `int`s; overflow is undefined behaviour (Generator.inl:95, 150, 156, 214, 221). -/
def imul (a b : Int) : Except Err Int :=
  if -2 ^ 31 ≤ a * b ∧ a * b < 2 ^ 31 then .ok (a * b) else .error .intOverflow

/-- Implicit conversion of `int` to the `size_t aStep` parameter of `AxisReset`. -/
def toSize (a : Int) : Nat := (a % 2 ^ 64).toNat

/-- One pass of the loop body of `AxisReset` (Generator.inl:452-454): in every lane with `aIdx > aMax`,
`bIdx` is incremented and `aSize` is subtracted from `aIdx`. -/
def resetBody (a b : Lanes Int) (aMax aSize : Int) : Lanes Int × Lanes Int :=
  (fun i => if aMax < a i then w32 (a i - aSize) else a i,
   fun i => if aMax < a i then w32 (b i + 1) else b i)

/-- The `for` loop of `AxisReset` (Generator.inl:450-455) from loop variable `r`.  A zero step never reaches
the bound.  (The `size_t` sum `r + aStep` cannot wrap to a value below `N`: either `aStep < 2^31`, or
`aStep >= 2^64 - 2^31` and the loop is left after the first pass.) -/
def resetLoop (N aStep : Nat) (aMax aSize : Int) (r : Nat) (a b : Lanes Int) : Except Err (Lanes Int × Lanes Int) :=
  if r < N then
    if aStep = 0 then .error .infiniteLoop
    else resetLoop N aStep aMax aSize (r + aStep) (resetBody a b aMax aSize).1 (resetBody a b aMax aSize).2
  else .ok (a, b)
termination_by N - r
decreasing_by omega

/-- `AxisReset<INITIAL>( aIdx, bIdx, aMax, aSize, aStep )` (Generator.inl:447-456), with
`aMax = aSize - 1` computed in int32 lanes (Generator.inl:93, 146-148, 208-212, 381). -/
def axisReset (N : Nat) (initial : Bool) (a b : Lanes Int) (aSize aStep : Int) : Except Err (Lanes Int × Lanes Int) :=
  resetLoop N (toSize aStep) (w32 (aSize - 1)) aSize (if initial then toSize aStep else 0) a b

/-- `xIdx += LoadIncremented` from zero (Generator.inl:85, 98). -/
def iota : Lanes Int := fun i => w32 (0 + i)

/-- `aIdx += int32v( ElementCount )` (Generator.inl:116). -/
def addN (N : Nat) (a : Lanes Int) : Lanes Int := fun i => w32 (a i + N)

/-- The N values of a register, in memory order. -/
def laneList {F : Type} (N : Nat) (v : Lanes F) : List F := (List.range N).map v

/-- Overwrite `vals` at `index` of the caller's array (`FS::Store`, `std::memcpy`); outside: undefined. -/
def store {F : Type} (buf : List F) (index : Int) (vals : List F) : Except Err (List F) :=
  if 0 ≤ index ∧ index + vals.length ≤ buf.length then
    .ok (buf.take index.toNat ++ vals ++ buf.drop (index.toNat + vals.length))
  else .error .badAccess

/-- `noiseOut[index]` as an rvalue. -/
def load1 {F : Type} (buf : List F) (index : Int) : Except Err F :=
  if 0 ≤ index then match buf[index.toNat]? with
    | some v => .ok v
    | none => .error .badAccess
  else .error .badAccess

/-- `OutputMinMax` (Generator.h:86-105). -/
structure MinMax (F : Type) where
  min : F
  max : F
deriving DecidableEq, Repr

section
variable {F : Type} [LinearOrder F] [BoundedOrder F]

/-- Default `OutputMinMax`: `{ kInfinity, -kInfinity }` (Generator.h:88-89). -/
def MinMax.init : MinMax F := ⟨⊤, ⊥⟩

/-- `operator<<( float )` (Generator.h:92-97). -/
def MinMax.addValue (m : MinMax F) (v : F) : MinMax F := ⟨Min.min m.min v, Max.max m.max v⟩

/-- `operator<<( const OutputMinMax& )` (Generator.h:100-105). -/
def MinMax.merge (m v : MinMax F) : MinMax F := ⟨Min.min m.min v.min, Max.max m.max v.max⟩

/-- The `do { minMax << noiseOut[index]; } while( ++index < totalValues )` of `StoreRemaining`
(Generator.inl:483-487). -/
def minMaxTail (buf : List F) (total index : Int) (m : MinMax F) : Except Err (MinMax F) :=
  match load1 buf index with
  | .error e => .error e
  | .ok v => if index + 1 < total then minMaxTail buf total (index + 1) (m.addValue v) else .ok (m.addValue v)
termination_by (total - index).toNat
decreasing_by omega

/-- The lanes of the running minimum and maximum, merged into the result (Generator.inl:501-506). -/
def mergeLanes (N : Nat) (mn mx : Lanes F) (m : MinMax F) : MinMax F :=
  (List.range N).foldl (fun m i => m.merge ⟨mn i, mx i⟩) m

/-- `StoreRemaining<LOADREMAINING>` (Generator.inl:472-510).  The `memcpy` of more than a register or of a
negative length is undefined. -/
def storeRemaining (N : Nat) (loadRemaining : Bool) (buf : List F) (total index : Int) (mn mx fin : Lanes F) :
    Except Err (List F × MinMax F) :=
  let remaining := total - index
  if (if loadRemaining then index = 0 else remaining ≠ N) then
    if remaining < 0 ∨ (N : Int) < remaining then .error .badAccess
    else do
      let buf ← store buf index (laneList remaining.toNat fin)
      let m ← minMaxTail buf total index MinMax.init
      pure (buf, mergeLanes N mn mx m)
  else do
    let buf ← store buf (total - N) (laneList N fin)
    pure (buf, mergeLanes N (fun i => Min.min (mn i) (fin i)) (fun i => Max.max (mx i) (fin i)) MinMax.init)

/-- State of the main loop: next output index, lane indices (`L`), caller's array, running min/max. -/
structure LoopSt (L F : Type) where
  index : Int
  lanes : L
  buf : List F
  mn : Lanes F
  mx : Lanes F

/-- The `while( index < totalValues - ElementCount )` loop shared (textually) by all grid functions
(Generator.inl:102-119, 158-177, 223-244, 263-276, 398-420): evaluate a register of noise, store it, update
min/max, advance.  `val` evaluates `Gen` at the lanes' positions; `adv` moves the lane indices on. -/
def mainLoop {L : Type} (N : Nat) (hN : 0 < N) (total : Int) (adv : L → Except Err L) (val : L → Int → Except Err (Lanes F))
    (s : LoopSt L F) : Except Err (LoopSt L F) :=
  if s.index < total - N then
    match val s.lanes s.index with
    | .error e => .error e
    | .ok g => match store s.buf s.index (laneList N g) with
      | .error e => .error e
      | .ok buf => match adv s.lanes with
        | .error e => .error e
        | .ok l => mainLoop N hN total adv val
            { index := s.index + N, lanes := l, buf := buf,
              mn := fun i => Min.min (s.mn i) (g i), mx := fun i => Max.max (s.mx i) (g i) }
  else .ok s
termination_by (total - s.index).toNat
decreasing_by simp_all; omega

/-- Start of every batch function: `index = 0`, `min( kInfinity )`, `max( -kInfinity )`. -/
def start {L : Type} (l : L) (buf : List F) : LoopSt L F :=
  { index := 0, lanes := l, buf := buf, mn := fun _ => ⊤, mx := fun _ => ⊥ }

/-- `GenUniformGrid2D` (Generator.inl:79-127). -/
def genUniformGrid2D (N : Nat) (hN : 0 < N) (o : FOps F) (gen : F → F → F) (buf : List F)
    (xOffset yOffset : F) (xCount yCount : Int) (xStep yStep : F) : Except Err (List F × MinMax F) := do
  let total ← imul xCount yCount
  let (x, y) ← axisReset N true iota (fun _ => 0) xCount xCount
  let val := fun (l : Lanes Int × Lanes Int) (i : Nat) =>
    gen (o.fma (o.conv (l.1 i)) xStep xOffset) (o.fma (o.conv (l.2 i)) yStep yOffset)
  let s ← mainLoop N hN total (fun l => axisReset N false (addN N l.1) l.2 xCount xCount)
    (fun l _ => .ok (val l)) (start (x, y) buf)
  storeRemaining N false s.buf total s.index s.mn s.mx (val s.lanes)

/-- Advance three axes (Generator.inl:173-176). -/
def adv3 (N : Nat) (initial : Bool) (x y z : Lanes Int) (xCount yCount : Int) :
    Except Err (Lanes Int × Lanes Int × Lanes Int) := do
  let (x, y) ← axisReset N initial x y xCount xCount
  let (y, z) ← axisReset N initial y z yCount (← imul xCount yCount)
  pure (x, y, z)

/-- `GenUniformGrid3D` (Generator.inl:129-186). -/
def genUniformGrid3D (N : Nat) (hN : 0 < N) (o : FOps F) (gen : F → F → F → F) (buf : List F)
    (xOffset yOffset zOffset : F) (xCount yCount zCount : Int) (xStep yStep zStep : F) :
    Except Err (List F × MinMax F) := do
  let total ← imul (← imul xCount yCount) zCount
  let l ← adv3 N true iota (fun _ => 0) (fun _ => 0) xCount yCount
  let val := fun (l : Lanes Int × Lanes Int × Lanes Int) (i : Nat) =>
    gen (o.fma (o.conv (l.1 i)) xStep xOffset) (o.fma (o.conv (l.2.1 i)) yStep yOffset)
      (o.fma (o.conv (l.2.2 i)) zStep zOffset)
  let s ← mainLoop N hN total (fun l => adv3 N false (addN N l.1) l.2.1 l.2.2 xCount yCount)
    (fun l _ => .ok (val l)) (start l buf)
  storeRemaining N false s.buf total s.index s.mn s.mx (val s.lanes)

/-- Advance four axes (Generator.inl:239-243). -/
def adv4 (N : Nat) (initial : Bool) (x y z w : Lanes Int) (xCount yCount zCount : Int) :
    Except Err (Lanes Int × Lanes Int × Lanes Int × Lanes Int) := do
  let (x, y) ← axisReset N initial x y xCount xCount
  let (y, z) ← axisReset N initial y z yCount (← imul xCount yCount)
  let (z, w) ← axisReset N initial z w zCount (← imul (← imul xCount yCount) zCount)
  pure (x, y, z, w)

/-- `GenUniformGrid4D` (Generator.inl:188-254). -/
def genUniformGrid4D (N : Nat) (hN : 0 < N) (o : FOps F) (gen : F → F → F → F → F) (buf : List F)
    (xOffset yOffset zOffset wOffset : F) (xCount yCount zCount wCount : Int) (xStep yStep zStep wStep : F) :
    Except Err (List F × MinMax F) := do
  let total ← imul (← imul (← imul xCount yCount) zCount) wCount
  let l ← adv4 N true iota (fun _ => 0) (fun _ => 0) (fun _ => 0) xCount yCount zCount
  let val := fun (l : Lanes Int × Lanes Int × Lanes Int × Lanes Int) (i : Nat) =>
    gen (o.fma (o.conv (l.1 i)) xStep xOffset) (o.fma (o.conv (l.2.1 i)) yStep yOffset)
      (o.fma (o.conv (l.2.2.1 i)) zStep zOffset) (o.fma (o.conv (l.2.2.2 i)) wStep wOffset)
  let s ← mainLoop N hN total (fun l => adv4 N false (addN N l.1) l.2.1 l.2.2.1 l.2.2.2 xCount yCount zCount)
    (fun l _ => .ok (val l)) (start l buf)
  storeRemaining N false s.buf total s.index s.mn s.mx (val s.lanes)

/-- The constants of `GenTileable2D` (Generator.inl:386-392): per axis the angle per sample and the radius. -/
structure TileConst (F : Type) where
  mul : F
  freq : F

/-- `GenTileable2D` (Generator.inl:370-433); `cx`, `cy` are the `xMul/xFreq` and `yMul/yFreq` of lines
386-392 (see `Tile.lean` for their real values). -/
def genTileable2D (N : Nat) (hN : 0 < N) (o : FOps F) (gen : F → F → F → F → F) (buf : List F)
    (xSize ySize : Int) (cx cy : TileConst F) : Except Err (List F × MinMax F) := do
  let total ← imul xSize ySize
  let (x, y) ← axisReset N true iota (fun _ => 0) xSize xSize
  let val := fun (l : Lanes Int × Lanes Int) (i : Nat) =>
    let xF := o.mul (o.conv (l.1 i)) cx.mul
    let yF := o.mul (o.conv (l.2 i)) cy.mul
    gen (o.mul (o.cos xF) cx.freq) (o.mul (o.cos yF) cy.freq) (o.mul (o.sin xF) cx.freq) (o.mul (o.sin yF) cy.freq)
  let s ← mainLoop N hN total (fun l => axisReset N false (addN N l.1) l.2 xSize xSize)
    (fun l _ => .ok (val l)) (start (x, y) buf)
  storeRemaining N false s.buf total s.index s.mn s.mx (val s.lanes)

/-- `FS::Load<float32v>( &arr[index] )` of a whole register. -/
def loadN (N : Nat) (arr : List F) (index : Int) : Except Err (Lanes F) :=
  if 0 ≤ index ∧ index + N ≤ arr.length then .ok fun i => arr[index.toNat + i]?.getD ⊤
  else .error .badAccess

/-- `LoadRemaining` (Generator.inl:458-470).  At `index == 0` only `remaining` lanes are filled, the others
keep whatever the register held (`junk`). -/
def loadRemaining (N : Nat) (junk : Lanes F) (arr : List F) (total index : Int) : Except Err (Lanes F) :=
  if index = 0 then
    let remaining := total - index
    if remaining < 0 ∨ (N : Int) < remaining ∨ (arr.length : Int) < remaining then .error .badAccess
    else .ok fun i => if (i : Int) < remaining then arr[i]?.getD ⊤ else junk i
  else loadN N arr (total - N)

/-- Load one register from each position array with `ld`, in argument order. -/
def loadAll (ld : List F → Except Err (Lanes F)) : List (List F) → Except Err (List (Lanes F))
  | [] => .ok []
  | a :: as => do
    let v ← ld a
    let vs ← loadAll ld as
    pure (v :: vs)

/-- `GenPositionArray2D`, `3D`, `4D` (Generator.inl:256-350): the three functions are the same text for 2, 3
and 4 position arrays; `arrs` lists (offset, array) per axis and `gen` takes the list of coordinates. -/
def genPositionArray (N : Nat) (hN : 0 < N) (o : FOps F) (junk : Lanes F) (gen : List F → F) (buf : List F)
    (count : Int) (arrs : List (F × List F)) : Except Err (List F × MinMax F) := do
  let pos := fun (vs : List (Lanes F)) (i : Nat) => gen (List.zipWith (fun a v => o.add a.1 (v i)) arrs vs)
  let s ← mainLoop N hN count (fun (l : Unit) => .ok l)
    (fun _ index => do pure (pos (← loadAll (fun a => loadN N a index) (arrs.map (·.2))))) (start () buf)
  let vs ← loadAll (fun a => loadRemaining N junk a count s.index) (arrs.map (·.2))
  storeRemaining N true s.buf count s.index s.mn s.mx (pos vs)

/-- `GenSingle2D` (Generator.inl:352-356): lane 0 of `Gen` at a broadcast position. -/
def genSingle2D (gen : F → F → F) (x y : F) : F := (fun (_ : Nat) => gen x y) 0

/-- `GenSingle3D` (Generator.inl:358-362). -/
def genSingle3D (gen : F → F → F → F) (x y z : F) : F := (fun (_ : Nat) => gen x y z) 0

/-- `GenSingle4D` (Generator.inl:364-368). -/
def genSingle4D (gen : F → F → F → F → F) (x y z w : F) : F := (fun (_ : Nat) => gen x y z w) 0

end
end FastNoise.Grid
