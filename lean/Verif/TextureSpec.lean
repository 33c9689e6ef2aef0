import Verif.Texture
import Verif.ModifiersLemmas
import Verif.Tile

/-!
# Specification for the texture preview: positions of pixels, and the BMP format
-/

namespace FastNoise.Texture
open FastNoise.Grid

/-- The float operations are exact on the numbers `r x`: what the theorems about real positions assume. -/
structure Exact {F : Type} (o : TexOps F) (r : ℝ → F) : Prop where
  conv : ∀ n : Int, o.conv n = r n
  fma : ∀ a b c, o.fma (r a) (r b) (r c) = r (a * b + c)
  add : ∀ a b, o.add (r a) (r b) = r (a + b)
  mul : ∀ a b, o.mul (r a) (r b) = r (a * b)
  sub : ∀ a b, o.sub (r a) (r b) = r (a - b)
  div : ∀ a b, b ≠ 0 → o.div (r a) (r b) = r (a / b)
  cos : ∀ a, o.cos (r a) = r (Real.cos a)
  sin : ∀ a, o.sin (r a) = r (Real.sin a)
  tile : ∀ (n : Nat) (s : ℝ), o.tile n (r s) = ⟨r (Tile.mul Tile.pi2Recip n), r (Tile.freq Tile.pi2Recip n s)⟩
  rgba : ∀ v, o.rgba (r v) = UInt32.ofBitVec (Modifiers.rgba8Word (-1) 1 v)
  word : ∀ w, o.toWord (o.ofWord w) = w

/-- Settings with real numbers. -/
structure Settings where
  noise2 : Int → ℝ → ℝ → ℝ
  noise3 : Int → ℝ → ℝ → ℝ → ℝ
  noise4 : Int → ℝ → ℝ → ℝ → ℝ → ℝ
  width : Nat
  height : Nat
  center : ℝ × ℝ × ℝ × ℝ
  scale : ℝ
  seed : Int
  genType : Nat

/-- The settings as the program holds them. -/
def Holds {F : Type} (r : ℝ → F) (b : BuildData F) (s : Settings) : Prop :=
  b.sizeX = s.width ∧ b.sizeY = s.height ∧ b.offX = r s.center.1 ∧ b.offY = r s.center.2.1 ∧ b.offZ = r s.center.2.2.1 ∧ b.offW = r s.center.2.2.2 ∧
    b.scale = r s.scale ∧ b.seed = s.seed ∧ b.genType = s.genType ∧
    (∀ i x y, b.noise.g2 i (r x) (r y) = r (s.noise2 i x y)) ∧ (∀ i x y z, b.noise.g3 i (r x) (r y) (r z) = r (s.noise3 i x y z)) ∧
    (∀ i x y z w, b.noise.g4 i (r x) (r y) (r z) (r w) = r (s.noise4 i x y z w))

/-- Where in the noise pixel `i` of a row (or column) of `n` pixels lies: the row is centred. -/
noncomputable def place (center scale : ℝ) (n i : Nat) : ℝ := center + ((i : ℝ) - n / 2) * scale

/-- The noise value pixel `(x, y)` must show; x counts from the left, y from below. -/
noncomputable def Settings.value (s : Settings) (x y : Nat) : ℝ :=
  let px := place s.center.1 s.scale s.width x
  let py := place s.center.2.1 s.scale s.height y
  if s.genType = 0 then s.noise2 s.seed px py
  else if s.genType = 1 then
    let p := Tile.point Tile.pi2Recip s.width s.scale x
    let q := Tile.point Tile.pi2Recip s.height s.scale y
    s.noise4 s.seed p.1 q.1 p.2 q.2
  else if s.genType = 2 then s.noise3 s.seed px py s.center.2.2.1
  else s.noise4 s.seed px py s.center.2.2.1 s.center.2.2.2

/-- The grey level of a noise value: -1 is black, 1 is white, linear in between, nearest level. -/
noncomputable def greyLevel (v : ℝ) : ℤ := Num.roundEven ((max (-1) (min v 1) + 1) / 2 * 255)

/-! ## The BMP format (file header, BITMAPCOREHEADER, 8 bits per pixel) -/

/-- Little endian number of `n` bytes at `off`. -/
def number (b : List UInt8) (off : Nat) : Nat → Option Nat
  | 0 => some 0
  | n + 1 => do
    let lo ← b[off]?
    let hi ← number b (off + 1) n
    pure (lo.toNat + 256 * hi)

/-- A decoded image: colour (red, green, blue) by column from the left and row from the bottom. -/
structure Image where
  width : Nat
  height : Nat
  colour : Nat → Nat → Option (UInt8 × UInt8 × UInt8)

/-- Decode a BMP file: magic, true file size, core header with one plane of 8 bits, palette of 256 blue-green-red entries after the header, then the rows, the lowest
first, each filled up to a multiple of 4 bytes. -/
def decodeBmp (b : List UInt8) : Option Image := do
  let magic ← number b 0 2
  let fileSize ← number b 2 4
  let start ← number b 10 4
  let headerSize ← number b 14 4
  let w ← number b 18 2
  let h ← number b 20 2
  let planes ← number b 22 2
  let bits ← number b 24 2
  let stride := (w * 8 + 31) / 32 * 4
  if magic = 0x4D42 ∧ fileSize = b.length ∧ headerSize = 12 ∧ planes = 1 ∧ bits = 8 ∧ 14 + 12 + 3 * 256 ≤ start ∧ start + h * stride ≤ b.length then
    some
      { width := w
        height := h
        colour := fun x y =>
          if x < w ∧ y < h then do
            let i ← b[start + y * stride + x]?
            let blue ← b[26 + 3 * i.toNat]?
            let green ← b[26 + 3 * i.toNat + 1]?
            let red ← b[26 + 3 * i.toNat + 2]?
            pure (red, green, blue)
          else none }
  else none

/-! ## File names -/

/-- The text `_1_2_…_k`. -/
def suffix : Nat → List Char
  | 0 => []
  | k + 1 => suffix k ++ '_' :: Editor.dec (k + 1)

/-- The name the user chose, without its extension: the text of the menu, or else the name of the generator. -/
def stem (custom node : Name) : Name :=
  if custom = [] then node else if ['.', 'b', 'm', 'p'] <:+ custom then custom.dropLast.dropLast.dropLast.dropLast else custom

/-- The k-th name an export tries: `name.bmp`, `name_1.bmp`, `name_1_2.bmp`, … -/
def tried (custom node : Name) (k : Nat) : Name := stem custom node ++ suffix k ++ ['.', 'b', 'm', 'p']

/-- `count` exports in a row with the same name settings; the i-th writes `content i`. -/
def exports (nameOk canOpen : Name → Bool) (custom node : Name) (content : Nat → List UInt8) : Nat → Disk → Disk
  | 0, d => d
  | n + 1, d => doExport nameOk canOpen custom node (content n) (exports nameOk canOpen custom node content n d)

end FastNoise.Texture
