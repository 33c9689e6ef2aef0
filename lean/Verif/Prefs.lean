import Verif.EditorFile
import Verif.Texture
/-!
# The settings of the two previews in the settings file

The ImGui settings handlers of the texture preview (tools/NodeEditor/NoiseTexture.cpp:563-615) and of the mesh preview (tools/NodeEditor/MeshNoisePreview.cpp:1132-1184).  As in
`EditorFile.lean`, ImGui itself is not modelled: it stores the sections that are written and, on loading, hands every line of a section to the handler of that type.
-/
namespace FastNoise.Prefs
open FastNoise.Editor

/-- The settings of the texture preview that are kept: `mBuildData.scale`, `.seed`, `.generationType`, `mExportBuildData.size`, `mUseRelativeScaling`, `mExportFilename`
(NoiseTexture.h:44-53, 96-102).  Numbers as bit patterns. -/
structure TexPrefs where
  scale : UInt32
  seed : UInt32
  genType : UInt32
  exportX : UInt32
  exportY : UInt32
  relative : Bool
  filename : List Char
deriving Repr, DecidableEq

/-- `editorSettings.TypeName`: NoiseTexture.cpp:566 -/
def texType : List Char := "NodeEditorNoiseTexture".toList

/-- `editorSettings.WriteAllFn`: NoiseTexture.cpp:569-579 -/
def writeTex (p : TexPrefs) : Section :=
  { type := texType
    name := "Settings".toList
    lines := ["scale=".toList ++ printF p.scale, "seed=".toList ++ printD p.seed, "gen_type=".toList ++ printD p.genType,
      "export_size=".toList ++ printD p.exportX ++ ':' :: printD p.exportY, "use_relative_scaling=".toList ++ printD (if p.relative then 1 else 0),
      "export_filename=".toList ++ p.filename] }

/-- `sscanf( line, "<key>%d", &x )` as a statement: `x` changes if the conversion succeeds. -/
def setD (key line : List Char) (x : UInt32) : UInt32 := (scan1D key line).getD x
/-- `sscanf( line, "<key>%f", &x )` as a statement. -/
def setF (key line : List Char) (x : UInt32) : UInt32 := (scan1F key line).getD x

/-- `sscanf( line, "<key>%d:%d", &x, &y )` as a statement: `x` changes even if the second conversion fails. -/
def setDD (key line : List Char) (xy : UInt32 × UInt32) : UInt32 × UInt32 :=
  match (lit key line).bind scanD with
  | none => xy
  | some (x, rest) =>
    match (lit [':'] rest).bind scanD with
    | none => (x, xy.2)
    | some (y, _) => (x, y)

/-- `editorSettings.ReadLineFn`: NoiseTexture.cpp:588-609 -/
def readTexLine (p : TexPrefs) (line : List Char) : TexPrefs :=
  let size := setDD "export_size=".toList line (p.exportX, p.exportY)
  { scale := setF "scale=".toList line p.scale
    seed := setD "seed=".toList line p.seed
    genType := setD "gen_type=".toList line p.genType
    exportX := size.1
    exportY := size.2
    relative := match scan1D "use_relative_scaling=".toList line with
      | some v => v != 0
      | none => p.relative
    filename := (lit "export_filename=".toList line).getD p.filename }

/-- Reading one section of the file: the handler of its type, `ReadOpenFn` (NoiseTexture.cpp:580-587), the lines. -/
def readTexSection (p : TexPrefs) (s : Section) : TexPrefs :=
  if s.type = texType ∧ s.name = "Settings".toList then s.lines.foldl readTexLine p else p

/-- What the texture preview takes from the file. -/
def readTex (file : List Section) (p : TexPrefs) : TexPrefs := file.foldl readTexSection p

/-- The state after the constructor: NoiseTexture.cpp:29-38, NoiseTexture.h:101-102.  `0x3f800000` is 1. -/
def texInit : TexPrefs := { scale := 0x3f800000, seed := 1337, genType := 0, exportX := 4096, exportY := 4096, relative := true, filename := [] }

/-! ## Mesh preview -/

/-- Colours and their conversion from and to three sRGB bytes, `Color3::fromSrgbInt`, `Color3::toSrgbInt` (Magnum, a dependency). -/
structure Srgb (C : Type) where
  fromInt : UInt32 → C
  toInt : C → UInt32

/-- The settings of the mesh preview that are kept: `mTriLimit`, `mBuildData.scale`, `.isoSurface`, `.heightmapMultiplier`, `.seed`, `.color`, `.meshType`, `mUpAxis`, `mEnabled`
(MeshNoisePreview.h:134-152, 200-205), and the colour the shader draws with, its uniform `colorTint` (MeshNoisePreview.cpp:1116-1120). -/
structure MeshPrefs (C : Type) where
  triLimit : UInt32
  scale : UInt32
  iso : UInt32
  multiplier : UInt32
  seed : UInt32
  color : C
  meshType : UInt32
  upAxis : UInt32
  enabled : Bool
  tint : C
deriving Repr, DecidableEq

variable {C : Type}

/-- `editorSettings.TypeName`: MeshNoisePreview.cpp:1135 -/
def meshType : List Char := "NodeEditorMeshNoisePreview".toList

/-- `editorSettings.WriteAllFn`: MeshNoisePreview.cpp:1138-1151 -/
def writeMesh (k : Srgb C) (p : MeshPrefs C) : Section :=
  { type := meshType
    name := "Settings".toList
    lines := ["tri_limit=".toList ++ printD p.triLimit, "scale=".toList ++ printF p.scale, "iso_surface=".toList ++ printF p.iso,
      "heightmap_multiplier=".toList ++ printF p.multiplier, "seed=".toList ++ printD p.seed, "color=".toList ++ printD (k.toInt p.color),
      "mesh_type=".toList ++ printD p.meshType, "up_axis=".toList ++ printD p.upAxis, "enabled=".toList ++ printD (if p.enabled then 1 else 0)] }

/-- `editorSettings.ReadLineFn`: MeshNoisePreview.cpp:1160-1180.  The uniform of the shader is not touched. -/
def readMeshLine (k : Srgb C) (p : MeshPrefs C) (line : List Char) : MeshPrefs C :=
  { triLimit := setD "tri_limit=".toList line p.triLimit
    scale := setF "scale=".toList line p.scale
    iso := setF "iso_surface=".toList line p.iso
    multiplier := setF "heightmap_multiplier=".toList line p.multiplier
    seed := setD "seed=".toList line p.seed
    meshType := setD "mesh_type=".toList line p.meshType
    upAxis := setD "up_axis=".toList line p.upAxis
    color := match scan1D "color=".toList line with
      | some i => k.fromInt i
      | none => p.color
    enabled := match scan1D "color=".toList line with
      | some _ => p.enabled
      | none =>
        match scan1D "enabled=".toList line with
        | some i => i != 0
        | none => p.enabled
    tint := p.tint }

/-- Reading one section of the file: the handler of its type, `ReadOpenFn` (MeshNoisePreview.cpp:1152-1159), the lines. -/
def readMeshSection (k : Srgb C) (p : MeshPrefs C) (s : Section) : MeshPrefs C :=
  if s.type = meshType ∧ s.name = "Settings".toList then s.lines.foldl (readMeshLine k) p else p

/-- What the mesh preview takes from the file. -/
def readMesh (k : Srgb C) (file : List Section) (p : MeshPrefs C) : MeshPrefs C := file.foldl (readMeshSection k) p

/-- The user picks a colour: MeshNoisePreview.cpp:202-206 -/
def pickColour (c : C) (p : MeshPrefs C) : MeshPrefs C := { p with color := c, tint := c }

/-- The state after the constructor: MeshNoisePreview.cpp:80-86, MeshNoisePreview.h:200-205; the shader starts with white (resources/VertexLight.frag:45-49). -/
def meshInit (white : C) : MeshPrefs C :=
  { triLimit := 35000000, scale := 0x3f800000, iso := 0, multiplier := 0x42c80000, seed := 1337, color := white, meshType := 1, upAxis := 0, enabled := true, tint := white }

/-- The build data the texture preview works with after loading, for the rest of its settings `b` (NoiseTexture.h:44-53): only scale, seed and type come from the file.
`toF`: the float with a bit pattern. -/
def buildWith {F : Type} (toF : UInt32 → F) (p : TexPrefs) (b : Texture.BuildData F) : Texture.BuildData F :=
  { b with scale := toF p.scale, seed := p.seed.toInt32.toInt, genType := p.genType.toInt32.toInt }

end FastNoise.Prefs
