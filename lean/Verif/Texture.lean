import Verif.Grid
import Verif.Stream
import Verif.EditorFile
import Mathlib.Data.Real.Basic

/-!
# The texture preview and its export (tools/NodeEditor/NoiseTexture.cpp, NoiseTexture.h)

What image is computed for the settings on the screen (`BuildTexture`), what an export computes and under which name and in which bytes it is written
(`DrawExportMenu`, without the browser variant).  When images are computed and shown is the subject of `Queues.lean`.
-/

namespace FastNoise.Texture
open FastNoise.Grid FastNoise.Stream

/-- The float operations of `BuildTexture` and of the batch functions it calls, as arbitrary functions. -/
structure TexOps (F : Type) extends FOps F where
  sub : F → F → F
  div : F → F → F
  /-- `ConvertRGBA8::GenT` after its source, for the default range -1 … 1 (Modifiers.inl:108-125, Modifiers.h:245-246). -/
  rgba : F → UInt32
  /-- `FS::Cast<float>` (Modifiers.inl:127). -/
  ofWord : UInt32 → F
  /-- The copy into `uint32_t`s (NoiseTexture.h:66-70). -/
  toWord : F → UInt32
  /-- The constants of `GenTileable2D` for a size and a step (Generator.inl:386-392). -/
  tile : Int → F → TileConst F
  zero : F

/-- The user's generator: its value for a seed and a position in 2, 3 and 4 dimensions. -/
structure Noise (F : Type) where
  g2 : Int → F → F → F
  g3 : Int → F → F → F → F
  g4 : Int → F → F → F → F → F

/-- `NoiseTexture::BuildData` (NoiseTexture.h:44-53) without the iteration number. -/
structure BuildData (F : Type) where
  noise : Noise F
  sizeX : Int
  sizeY : Int
  offX : F
  offY : F
  offZ : F
  offW : F
  scale : F
  seed : Int
  genType : Int

variable {F : Type} [LinearOrder F] [BoundedOrder F]

/-- `BuildTexture` (NoiseTexture.cpp:499-541): the words of `textureData`.  `old` is what the thread's `noiseData` held before; `N` is the width of the SIMD registers.
`size_t` of a negative size asks for more memory than there is and is not modelled (callers: sizes above zero). -/
def buildTexture (N : Nat) (hN : 0 < N) (o : TexOps F) (old : List F) (b : BuildData F) : Except Err (List UInt32) :=
  let n := b.sizeX.toNat * b.sizeY.toNat
  let noiseData := old.take n ++ List.replicate (n - old.length) o.zero
  let px := fun v : F => o.ofWord (o.rgba v)
  let xOffset := o.sub b.offX (o.mul (o.div (o.conv b.sizeX) (o.conv 2)) b.scale)
  let yOffset := o.sub b.offY (o.mul (o.div (o.conv b.sizeY) (o.conv 2)) b.scale)
  let result : Except Err (List F × MinMax F) :=
    if b.genType = 0 then
      genUniformGrid2D N hN o.toFOps (fun x y => px (b.noise.g2 b.seed x y)) noiseData xOffset yOffset b.sizeX b.sizeY b.scale b.scale
    else if b.genType = 1 then
      genTileable2D N hN o.toFOps (fun x y z w => px (b.noise.g4 b.seed x y z w)) noiseData b.sizeX b.sizeY (o.tile b.sizeX b.scale) (o.tile b.sizeY b.scale)
    else if b.genType = 2 then
      genUniformGrid3D N hN o.toFOps (fun x y z => px (b.noise.g3 b.seed x y z)) noiseData xOffset yOffset b.offZ b.sizeX b.sizeY 1 b.scale b.scale b.scale
    else if b.genType = 3 then
      genUniformGrid4D N hN o.toFOps (fun x y z w => px (b.noise.g4 b.seed x y z w)) noiseData xOffset yOffset b.offZ b.offW b.sizeX b.sizeY 1 1
        b.scale b.scale b.scale b.scale
    else .ok (noiseData, MinMax.init)
  result.map fun r => r.1.map o.toWord

/-- What the export computes (NoiseTexture.cpp:291-306): generation type, seed and generator of the preview, its own size, and scale and offset adapted if the box
"Scale export to match preview area" is ticked.  `exportX`, `exportY`: the size set in the menu. -/
def exportData (o : TexOps F) (useRelativeScaling : Bool) (b : BuildData F) (exportX exportY : Int) : BuildData F :=
  if useRelativeScaling then
    let relativeScale := o.div (o.conv (exportX + exportY)) (o.conv (b.sizeX + b.sizeY))
    { b with sizeX := exportX, sizeY := exportY, scale := o.div b.scale relativeScale
             offX := o.mul b.offX relativeScale, offY := o.mul b.offY relativeScale
             offZ := o.mul b.offZ relativeScale, offW := o.mul b.offW relativeScale }
  else { b with sizeX := exportX, sizeY := exportY }

/-- NoiseTexture.cpp:206-214: the left mouse button is dragged over the picture by `(dx, dy)` pixels of the screen (y downwards). -/
def dragLeft (o : TexOps F) (dx dy : F) (b : BuildData F) : BuildData F :=
  if b.genType ≠ 1 then { b with offX := o.sub b.offX (o.mul dx b.scale), offY := o.add b.offY (o.mul dy b.scale) } else b

/-- NoiseTexture.cpp:215-228: the right mouse button. -/
def dragRight (o : TexOps F) (dx dy : F) (b : BuildData F) : BuildData F :=
  if b.genType = 2 ∨ b.genType = 3 then
    let b := { b with offZ := o.sub b.offZ (o.mul dx b.scale) }
    if b.genType = 3 then { b with offW := o.add b.offW (o.mul dy b.scale) } else b
  else b

/-! ## The BMP file -/

/-- NoiseTexture.cpp:388-394: bytes added to a row. -/
def padding (sizeX : Int) : Int := if sizeX.tmod 4 ≠ 0 then 4 - sizeX.tmod 4 else 0

/-- NoiseTexture.cpp:372-399: the 24 bytes of `BmpHeader`, little endian, without gaps between the members. -/
def header (sizeX sizeY : Int) : List UInt8 :=
  le32 (UInt32.ofInt (794 + (sizeX + padding sizeX) * sizeY)) ++ le32 0 ++ le32 (14 + 12 + 256 * 3) ++ le32 12 ++
    le16 (sizeX % 65536).toNat ++ le16 (sizeY % 65536).toNat ++ le16 1 ++ le16 8

/-- NoiseTexture.cpp:404-409: the colour map. -/
def colourMap : List UInt8 := (List.range 256).flatMap fun i => [UInt8.ofNat i, UInt8.ofNat i, UInt8.ofNat i]

/-- NoiseTexture.cpp:413-425: the loop over the pixels from the count `xIdx`. -/
def pixelBytes (sizeX : Int) (pad : Nat) : Int → List UInt32 → List UInt8
  | _, [] => []
  | xIdx, pix :: rest =>
    if xIdx - 1 = 0 then pix.toUInt8 :: (List.replicate pad 0 ++ pixelBytes sizeX pad sizeX rest)
    else pix.toUInt8 :: pixelBytes sizeX pad (xIdx - 1) rest

/-- NoiseTexture.cpp:401-425: everything written to the file. -/
def bmp (sizeX sizeY : Int) (data : List UInt32) : List UInt8 :=
  [0x42, 0x4D] ++ header sizeX sizeY ++ colourMap ++
    pixelBytes sizeX (padding sizeX).toNat (if padding sizeX ≠ 0 then sizeX else 0) data

/-! ## The name of the file -/

/-- A file name, as characters. -/
abbrev Name := List Char

/-- ".bmp" -/
def ext : Name := ['.', 'b', 'm', 'p']

/-- NoiseTexture.cpp:319-335: the name before any numbering.  `custom` is the name from the menu, `node` the name of the generator. -/
def firstName (custom node : Name) : Name :=
  if custom ≠ [] then (if custom.length < 4 ∨ custom.drop (custom.length - 4) ≠ ext then custom ++ ext else custom)
  else node ++ ext

/-- The last position of a dot, `std::string::find_last_of( '.' )` (NoiseTexture.cpp:352). -/
def lastDot : Name → Option Nat
  | [] => none
  | c :: cs => match lastDot cs with
    | some i => some (i + 1)
    | none => if c = '.' then some 0 else none

/-- NoiseTexture.cpp:352-362: the numbered version of a name. -/
def numbered (i : Nat) (filename : Name) : Name :=
  match lastDot filename with
  | some dotPos => filename.take dotPos ++ '_' :: Editor.dec i ++ filename.drop dotPos
  | none => filename ++ '_' :: Editor.dec i

/-- What `std::filesystem::exists( filename )` does (NoiseTexture.cpp:345): it throws if the name is too long for the file system, for example. -/
inductive Stat
  | absent
  | present
  | throws
deriving DecidableEq

/-- NoiseTexture.cpp:343-363 from the counter `i` on; `none`: the exception leaves the thread and the program is terminated. -/
def chooseName (stat : Name → Stat) (i : Nat) (filename : Name) : Option Name :=
  if i < 1024 then
    match stat filename with
    | .throws => none
    | .absent => some filename
    | .present => chooseName stat (i + 1) (numbered i filename)
  else some filename
termination_by 1024 - i

/-- State of the export menu and of the disk. -/
structure Disk where
  files : Name → Option (List UInt8)
  exporting : Bool := false        -- mIsExporting
  crashed : Bool := false

/-- One export from the click to the end of the thread (NoiseTexture.cpp:289-448).  `nameOk`: the file system accepts a name of this kind; `canOpen`: the file can be
created.  Further clicks are refused while `mIsExporting` is set. -/
def doExport (nameOk canOpen : Name → Bool) (custom node : Name) (content : List UInt8) (d : Disk) : Disk :=
  if d.exporting || d.crashed then d
  else
    match chooseName (fun n => if nameOk n then (if (d.files n).isSome then .present else .absent) else .throws) 1 (firstName custom node) with
    | none => { d with crashed := true }
    | some n => if canOpen n then { d with files := fun m => if m = n then some content else d.files m } else { d with exporting := true }

/-! ## The name in the menu -/

/-- NoiseTexture.cpp:249-260: the text the menu shows; `node` is the name of the generator, if there is one. -/
def shownName (custom : Name) (node : Option Name) : Name :=
  (if custom = [] then node.getD [] else custom).take 255

/-- NoiseTexture.cpp:264-281: what becomes of an edited text. -/
def editName (newText : Name) : Option Name → Name
  | some node => if newText ≠ node then newText else []
  | none => newText

end FastNoise.Texture
