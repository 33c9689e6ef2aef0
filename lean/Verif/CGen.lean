import Verif.Grid

/-!
# Generation calls of the C API (`src/FastNoise/FastNoise_C.cpp`:22-39, 67-115)

* The caller's floats are one list `mem`; a pointer is an index into it, `none` is `NULL`.  Output array, min/max
  array and position arrays are pointers into that memory and may overlap.
* A node handle is `none` (`NULL`) or a node: its noise functions of the seed and the position.
* The batch functions behind the calls are those of `Grid.lean`; they get the memory from `noiseOut` on.  Position
  arrays are read from the same memory while it is being written (`genPositionArrayM`).
-/

namespace FastNoise.CGen

open Grid

variable {F : Type} [LinearOrder F] [BoundedOrder F]

/-- What a node computes: `Gen( seed, pos... )` in one lane (Generator.inl:19-26). -/
structure Node (F : Type) where
  gen2 : Int → F → F → F
  gen3 : Int → F → F → F → F
  gen4 : Int → F → F → F → F → F

/-- A `float*` argument. -/
abbrev Ptr := Option Nat

/-- Following a `float*` that may be `NULL`: undefined behaviour for `NULL`. -/
def need (p : Ptr) : Except Err Nat :=
  match p with
  | none => .error .badAccess
  | some a => .ok a

/-- `ToGen( node )->...` (FastNoise_C.cpp:22-30): a call through a `NULL` handle is undefined behaviour. -/
def toGen (node : Option (Node F)) : Except Err (Node F) :=
  match node with
  | none => .error .badAccess
  | some n => .ok n

/-- `StoreMinMax` (FastNoise_C.cpp:32-39). -/
def storeMinMax (mem : List F) (p : Ptr) (m : MinMax F) : Except Err (List F) :=
  match p with
  | none => .ok mem
  | some a => do
    let mem ← store mem (a : Int) [m.min]
    store mem ((a : Int) + 1) [m.max]

/-- Call a batch function with `float* noiseOut` and store its result with `StoreMinMax` (the shape of
FastNoise_C.cpp:67-95, 112-115). -/
def withOut (mem : List F) (noiseOut outputMinMax : Ptr) (call : List F → Except Err (List F × MinMax F)) :
    Except Err (List F) := do
  let a ← need noiseOut
  let (buf, m) ← call (mem.drop a)
  storeMinMax (mem.take a ++ buf) outputMinMax m

/-- `fnGenUniformGrid2D` (FastNoise_C.cpp:67-70). -/
def fnGenUniformGrid2D (N : Nat) (hN : 0 < N) (o : FOps F) (node : Option (Node F)) (mem : List F) (noiseOut : Ptr)
    (xOffset yOffset : F) (xCount yCount : Int) (xStepSize yStepSize : F) (seed : Int) (outputMinMax : Ptr) :
    Except Err (List F) := do
  let g ← toGen node
  withOut mem noiseOut outputMinMax fun buf =>
    genUniformGrid2D N hN o (g.gen2 seed) buf xOffset yOffset xCount yCount xStepSize yStepSize

/-- `fnGenUniformGrid3D` (FastNoise_C.cpp:72-75). -/
def fnGenUniformGrid3D (N : Nat) (hN : 0 < N) (o : FOps F) (node : Option (Node F)) (mem : List F) (noiseOut : Ptr)
    (xOffset yOffset zOffset : F) (xCount yCount zCount : Int) (xStepSize yStepSize zStepSize : F) (seed : Int)
    (outputMinMax : Ptr) : Except Err (List F) := do
  let g ← toGen node
  withOut mem noiseOut outputMinMax fun buf =>
    genUniformGrid3D N hN o (g.gen3 seed) buf xOffset yOffset zOffset xCount yCount zCount xStepSize yStepSize zStepSize

/-- `fnGenUniformGrid4D` (FastNoise_C.cpp:77-80). -/
def fnGenUniformGrid4D (N : Nat) (hN : 0 < N) (o : FOps F) (node : Option (Node F)) (mem : List F) (noiseOut : Ptr)
    (xOffset yOffset zOffset wOffset : F) (xCount yCount zCount wCount : Int)
    (xStepSize yStepSize zStepSize wStepSize : F) (seed : Int) (outputMinMax : Ptr) : Except Err (List F) := do
  let g ← toGen node
  withOut mem noiseOut outputMinMax fun buf =>
    genUniformGrid4D N hN o (g.gen4 seed) buf xOffset yOffset zOffset wOffset xCount yCount zCount wCount
      xStepSize yStepSize zStepSize wStepSize

/-- The main loop of `GenPositionArray*` (Generator.inl:262-276, 292-307, 324-340) when the position arrays are read
from memory that the loop itself may be writing: `val` sees the output array as it is at that moment. -/
def posLoop (N : Nat) (hN : 0 < N) (total : Int) (val : Int → List F → Except Err (Lanes F)) (s : LoopSt Unit F) :
    Except Err (LoopSt Unit F) :=
  if s.index < total - N then
    match val s.index s.buf with
    | .error e => .error e
    | .ok g => match store s.buf s.index (laneList N g) with
      | .error e => .error e
      | .ok buf => posLoop N hN total val
          { index := s.index + N, lanes := (), buf := buf,
            mn := fun i => Min.min (s.mn i) (g i), mx := fun i => Max.max (s.mx i) (g i) }
  else .ok s
termination_by (total - s.index).toNat
decreasing_by simp_all; omega

/-- `GenPositionArray2D`, `3D`, `4D` (Generator.inl:256-350) on shared memory: `pre` is the memory before `noiseOut`,
`buf` the memory from `noiseOut` on, `arrs` lists (offset, address of the array) per axis.  `loadRemaining` and
`storeRemaining` are those of `Grid.lean`. -/
def genPositionArrayM (N : Nat) (hN : 0 < N) (o : FOps F) (junk : Lanes F) (gen : List F → F) (pre buf : List F)
    (count : Int) (arrs : List (F × Nat)) : Except Err (List F × MinMax F) := do
  let pos := fun (vs : List (Lanes F)) (i : Nat) => gen (List.zipWith (fun a v => o.add a.1 (v i)) arrs vs)
  let s ← posLoop N hN count
    (fun index b => do pure (pos (← loadAll (fun a => loadN N a index) (arrs.map fun a => (pre ++ b).drop a.2))))
    (start () buf)
  let vs ← loadAll (fun a => loadRemaining N junk a count s.index) (arrs.map fun a => (pre ++ s.buf).drop a.2)
  storeRemaining N true s.buf count s.index s.mn s.mx (pos vs)

/-- `Gen( seed, xPos, yPos )` on a list of two coordinates (Generator.inl:268, 281). -/
def at2 (g : Node F) (seed : Int) (p : List F) : F :=
  match p with
  | [x, y] => g.gen2 seed x y
  | _ => ⊤

/-- `Gen( seed, xPos, yPos, zPos )` (Generator.inl:299, 313). -/
def at3 (g : Node F) (seed : Int) (p : List F) : F :=
  match p with
  | [x, y, z] => g.gen3 seed x y z
  | _ => ⊤

/-- `Gen( seed, xPos, yPos, zPos, wPos )` (Generator.inl:332, 347). -/
def at4 (g : Node F) (seed : Int) (p : List F) : F :=
  match p with
  | [x, y, z, w] => g.gen4 seed x y z w
  | _ => ⊤

/-- `fnGenPositionArray2D` (FastNoise_C.cpp:82-85).  `junk`: what an uninitialised register holds
(Generator.inl:464). -/
def fnGenPositionArray2D (N : Nat) (hN : 0 < N) (o : FOps F) (junk : Lanes F) (node : Option (Node F)) (mem : List F)
    (noiseOut : Ptr) (count : Int) (xPosArray yPosArray : Ptr) (xOffset yOffset : F) (seed : Int) (outputMinMax : Ptr) :
    Except Err (List F) := do
  let g ← toGen node
  let a ← need noiseOut
  let x ← need xPosArray
  let y ← need yPosArray
  withOut mem noiseOut outputMinMax fun buf =>
    genPositionArrayM N hN o junk (at2 g seed) (mem.take a) buf count [(xOffset, x), (yOffset, y)]

/-- `fnGenPositionArray3D` (FastNoise_C.cpp:87-90). -/
def fnGenPositionArray3D (N : Nat) (hN : 0 < N) (o : FOps F) (junk : Lanes F) (node : Option (Node F)) (mem : List F)
    (noiseOut : Ptr) (count : Int) (xPosArray yPosArray zPosArray : Ptr) (xOffset yOffset zOffset : F) (seed : Int)
    (outputMinMax : Ptr) : Except Err (List F) := do
  let g ← toGen node
  let a ← need noiseOut
  let x ← need xPosArray
  let y ← need yPosArray
  let z ← need zPosArray
  withOut mem noiseOut outputMinMax fun buf =>
    genPositionArrayM N hN o junk (at3 g seed) (mem.take a) buf count [(xOffset, x), (yOffset, y), (zOffset, z)]

/-- `fnGenPositionArray4D` (FastNoise_C.cpp:92-95). -/
def fnGenPositionArray4D (N : Nat) (hN : 0 < N) (o : FOps F) (junk : Lanes F) (node : Option (Node F)) (mem : List F)
    (noiseOut : Ptr) (count : Int) (xPosArray yPosArray zPosArray wPosArray : Ptr) (xOffset yOffset zOffset wOffset : F)
    (seed : Int) (outputMinMax : Ptr) : Except Err (List F) := do
  let g ← toGen node
  let a ← need noiseOut
  let x ← need xPosArray
  let y ← need yPosArray
  let z ← need zPosArray
  let w ← need wPosArray
  withOut mem noiseOut outputMinMax fun buf =>
    genPositionArrayM N hN o junk (at4 g seed) (mem.take a) buf count
      [(xOffset, x), (yOffset, y), (zOffset, z), (wOffset, w)]

/-- `fnGenSingle2D` (FastNoise_C.cpp:97-100). -/
def fnGenSingle2D (node : Option (Node F)) (x y : F) (seed : Int) : Except Err F := do
  let g ← toGen node
  pure (genSingle2D (g.gen2 seed) x y)

/-- `fnGenSingle3D` (FastNoise_C.cpp:102-105). -/
def fnGenSingle3D (node : Option (Node F)) (x y z : F) (seed : Int) : Except Err F := do
  let g ← toGen node
  pure (genSingle3D (g.gen3 seed) x y z)

/-- `fnGenSingle4D` (FastNoise_C.cpp:107-110). -/
def fnGenSingle4D (node : Option (Node F)) (x y z w : F) (seed : Int) : Except Err F := do
  let g ← toGen node
  pure (genSingle4D (g.gen4 seed) x y z w)

/-- The scalars of `GenTileable2D` for one axis (Generator.inl:386-392): `sizePi = (float)size * pi2Recip`, radius
`sizePi * stepSize`, angle per sample `1 / sizePi`.  `recip` is the float reciprocal, `pi2Recip` the literal. -/
def tileConst (o : FOps F) (recip : F → F) (pi2Recip : F) (size : Int) (stepSize : F) : TileConst F :=
  let sizePi := o.mul (o.conv size) pi2Recip
  { mul := recip sizePi, freq := o.mul sizePi stepSize }

/-- `fnGenTileable2D` (FastNoise_C.cpp:112-115). -/
def fnGenTileable2D (N : Nat) (hN : 0 < N) (o : FOps F) (recip : F → F) (pi2Recip : F) (node : Option (Node F))
    (mem : List F) (noiseOut : Ptr) (xSize ySize : Int) (xStepSize yStepSize : F) (seed : Int) (outputMinMax : Ptr) :
    Except Err (List F) := do
  let g ← toGen node
  withOut mem noiseOut outputMinMax fun buf =>
    genTileable2D N hN o (g.gen4 seed) buf xSize ySize (tileConst o recip pi2Recip xSize xStepSize)
      (tileConst o recip pi2Recip ySize yStepSize)

end FastNoise.CGen
