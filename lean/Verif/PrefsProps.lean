import Verif.PrefsLemmas
import Verif.EditorFileProps
/-!
# C53: the settings of the texture and the mesh preview survive a restart

`ofType texType file = [writeTex p]`: the file holds the section the texture preview wrote, among any sections of other handlers.
-/
namespace FastNoise.Prefs
open FastNoise.Editor

variable {C : Type}

/-- **C53.** Whatever the texture preview held before loading, afterwards every setting is as it was saved: seed, generation type, export size, relative scaling and file name exactly,
the scale up to a millionth (exactly from 16 on).  Nothing else in the file has any influence. -/
theorem C53_texture (p p0 : TexPrefs) (file : List Section) (h : ofType texType file = [writeTex p]) (t : TexSetting) : t.same SavedValue p (readTex file p0) := by
  rw [tex_lines h rfl, tex_read]
  cases t <;> simp [TexSetting.same, savedValue_reload]

/-- **C53.** A scale that was typed in with at most six decimals, or is 16 or larger, comes back exactly. -/
theorem C53_texture_exact (p p0 : TexPrefs) (file : List Section) (h : ofType texType file = [writeTex p]) (hk : Kept p.scale) : readTex file p0 = p := by
  rw [tex_lines h rfl, tex_read, kept_reload hk]

/-- **C53.** Saving again what was loaded writes the same text. -/
theorem C53_texture_again (p p0 : TexPrefs) (file : List Section) (h : ofType texType file = [writeTex p]) : writeTex (readTex file p0) = writeTex p := by
  rw [tex_lines h rfl, tex_read]
  simp only [writeTex, printF_reloadF]

/-- **C53.** The same for the mesh preview; the colour comes back up to its three sRGB bytes.  `hk`: converting bytes to a colour and back gives the bytes (Magnum). -/
theorem C53_mesh (k : Srgb C) (hk : ∀ c, k.toInt (k.fromInt (k.toInt c)) = k.toInt c) (p p0 : MeshPrefs C) (file : List Section) (h : ofType meshType file = [writeMesh k p])
    (t : MeshSetting) : t.same k SavedValue p (readMesh k file p0) := by
  rw [mesh_lines k h rfl, mesh_read]
  cases t <;> simp [MeshSetting.same, savedValue_reload, hk]

/-- **C53.** Saving again what was loaded writes the same text. -/
theorem C53_mesh_again (k : Srgb C) (hk : ∀ c, k.toInt (k.fromInt (k.toInt c)) = k.toInt c) (p p0 : MeshPrefs C) (file : List Section) (h : ofType meshType file = [writeMesh k p]) :
    writeMesh k (readMesh k file p0) = writeMesh k p := by
  rw [mesh_lines k h rfl, mesh_read]
  simp only [writeMesh, printF_reloadF, hk]

/-- **C53.** The sections of the previews do not disturb the graph of the editor: with them in the file, in any order, the editor loads what C50 says about its own sections. -/
theorem C53_graph_undisturbed (ρ ρ' : List (Nat × Nat) → List (Nat × Nat)) (fuel : Nat) (st : Ed) (grid : Grid) (pr pr0 : Editor.Prefs) (detached : Bool) (file whole : List Section)
    (_hs : save ρ fuel st grid pr = .ok file) (hw : ofEditor whole = file) :
    load Registry.reg ρ' fuel detached pr0 whole = load Registry.reg ρ' fuel detached pr0 file := by
  rw [load_filter, hw]

/-- **C53.** One line of any text changes at most one setting of the texture preview. -/
theorem C53_texture_line (p : TexPrefs) (line : List Char) : ∃ s : TexSetting, ∀ t ≠ s, t.same Eq p (readTexLine p line) := tex_one p line

/-- **C53.** One line of any text changes at most one setting of the mesh preview. -/
theorem C53_mesh_line (k : Srgb C) (p : MeshPrefs C) (line : List Char) : ∃ s : MeshSetting, ∀ t ≠ s, t.same k Eq p (readMeshLine k p line) := mesh_one k p line

/-- **C53.** If the program dies while the section is written, after any character, then at most one setting is wrong: each other one is as it was saved, or as it was before loading. -/
theorem C53_texture_crash (p p0 : TexPrefs) (lines : List (List Char)) (hc : CutLines (writeTex p).lines lines) (file : List Section)
    (h : ofType texType file = [{ writeTex p with lines := lines }]) :
    ∃ s : TexSetting, ∀ t ≠ s, t.same SavedValue p (readTex file p0) ∨ t.same Eq p0 (readTex file p0) := by
  rw [tex_lines h rfl]
  obtain ⟨n, rfl | ⟨l', rfl⟩⟩ := cut_take hc
  · exact ⟨.scale, fun t _ => tex_take p p0 n t⟩
  · simp only [List.foldl_append, List.foldl_cons, List.foldl_nil]
    obtain ⟨s, hs⟩ := tex_one (((writeTex p).lines.take n).foldl readTexLine p0) l'
    refine ⟨s, fun t ht => ?_⟩
    have h1 := hs t ht
    have h2 := tex_take p p0 n t
    revert h1 h2
    cases t <;> simp only [TexSetting.same] <;> intro h1 h2
    · rw [← h1]; exact h2
    · rw [h1]; exact h2
    · rw [h1]; exact h2
    · rw [h1.1, h1.2]; exact h2
    · rw [h1]; exact h2
    · rw [h1]; exact h2

/-- **C53.** The same for the mesh preview. -/
theorem C53_mesh_crash (k : Srgb C) (hk : ∀ c, k.toInt (k.fromInt (k.toInt c)) = k.toInt c) (p p0 : MeshPrefs C) (lines : List (List Char)) (hc : CutLines (writeMesh k p).lines lines)
    (file : List Section) (h : ofType meshType file = [{ writeMesh k p with lines := lines }]) :
    ∃ s : MeshSetting, ∀ t ≠ s, t.same k SavedValue p (readMesh k file p0) ∨ t.same k Eq p0 (readMesh k file p0) := by
  rw [mesh_lines k h rfl]
  obtain ⟨n, rfl | ⟨l', rfl⟩⟩ := cut_take hc
  · exact ⟨.scale, fun t _ => mesh_take k hk p p0 n t⟩
  · simp only [List.foldl_append, List.foldl_cons, List.foldl_nil]
    obtain ⟨s, hs⟩ := mesh_one k (((writeMesh k p).lines.take n).foldl (readMeshLine k) p0) l'
    refine ⟨s, fun t ht => ?_⟩
    have h1 := hs t ht
    have h2 := mesh_take k hk p p0 n t
    revert h1 h2
    cases t <;> simp only [MeshSetting.same] <;> intro h1 h2 <;> first | (rw [h1]; exact h2) | (rw [← h1]; exact h2)

/-- **C53.** What is not kept: the mesh is drawn in the colour the user picked only until the program is closed.  Afterwards the settings show that colour, but the shader still has the one
it started with, whatever was saved. -/
theorem C53_colour_not_shown (k : Srgb C) (c white : C) (p : MeshPrefs C) :
    (pickColour c p).tint = c ∧ (readMesh k [writeMesh k (pickColour c p)] (meshInit white)).tint = white ∧
      (readMesh k [writeMesh k (pickColour c p)] (meshInit white)).color = k.fromInt (k.toInt c) := by
  rw [mesh_lines k (s := writeMesh k (pickColour c p)) rfl rfl, mesh_read]
  exact ⟨rfl, rfl, rfl⟩

/-- **C53.** A generation type that does not exist is taken over from the file, and then the preview no longer depends on the generator: it shows what was in the buffer before. -/
theorem C53_bad_gen_type {F : Type} [LinearOrder F] [BoundedOrder F] (N : Nat) (hN : 0 < N) (o : Texture.TexOps F) (toF : UInt32 → F) (p : TexPrefs) (b : Texture.BuildData F) :
    (readTex [⟨texType, "Settings".toList, ["gen_type=7".toList]⟩] p).genType = 7 ∧
    ∀ old : List F, old.length = b.sizeX.toNat * b.sizeY.toNat →
      Texture.buildTexture N hN o old (buildWith toF (readTex [⟨texType, "Settings".toList, ["gen_type=7".toList]⟩] p) b) = .ok (old.map o.toWord) := by
  have h7 : (readTex [⟨texType, "Settings".toList, ["gen_type=7".toList]⟩] p).genType = 7 := by
    rw [tex_lines (s := ⟨texType, "Settings".toList, ["gen_type=7".toList]⟩) rfl rfl]
    simp only [List.foldl_cons, List.foldl_nil]
    show setD "gen_type=".toList "gen_type=7".toList p.genType = 7
    unfold setD
    rw [show scan1D "gen_type=".toList "gen_type=7".toList = some 7 by decide]
    rfl
  refine ⟨h7, fun old ho => ?_⟩
  unfold buildWith
  rw [h7]
  unfold Texture.buildTexture
  simp only [show (7 : UInt32).toInt32.toInt = 7 by decide]
  norm_num
  rw [← ho]
  simp [Except.map]

/-! ## Non-vacuity -/

/-- Settings somebody might use: scale 0.3, seed -5, 3D, an export of 8192 × 512 pixels named "my [noise]". -/
def exTex : TexPrefs := { scale := 0x3e99999a, seed := 0xfffffffb, genType := 2, exportX := 8192, exportY := 512, relative := false, filename := "my [noise]=%d".toList }


/-- A conversion with `hk`. -/
def exSrgb' : Srgb Bool := { fromInt := fun i => i != 0, toInt := fun b => if b then 0xffffff else 0 }

/-- A mesh preview with a black mesh. -/
def exMesh : MeshPrefs Bool :=
  pickColour false { triLimit := 60000000, scale := 0x3f000000, iso := 0xbe4ccccd, multiplier := 0x42c80000, seed := 42, color := true, meshType := 2, upAxis := 1, enabled := false, tint := true }

/-- A file with windows, the previews and a node. -/
def exWhole : List Section :=
  [⟨"Window".toList, "Texture Output".toList, ["Pos=10,20".toList, "seed=99".toList]⟩, writeTex exTex, ⟨nodeType, "Node:0".toList, ["variable=0".toList, "id=1".toList]⟩, writeMesh exSrgb' exMesh,
    writePrefs [] exPrefs]

example : ofType texType exWhole = [writeTex exTex] ∧ ofType meshType exWhole = [writeMesh exSrgb' exMesh] ∧ (∀ c, exSrgb'.toInt (exSrgb'.fromInt (exSrgb'.toInt c)) = exSrgb'.toInt c) := by
  refine ⟨by decide +kernel, by decide +kernel, by decide⟩

example : readTex exWhole texInit = exTex := C53_texture_exact exTex texInit exWhole (by decide +kernel)
  (Or.inl ⟨"0.300000".toList, ⟨[], 0, 300000, .inl rfl, by norm_num, by decide +kernel⟩, by decide +kernel⟩)

/-- Non-vacuity of `C53_graph_undisturbed`: an empty graph and the two previews. -/
example : ∃ file, save id 20 init exGrid exPrefs = .ok file ∧ ofEditor (writeTex exTex :: writeMesh exSrgb' exMesh :: file) = file := ⟨_, rfl, by decide +kernel⟩

/-- Non-vacuity of the crash theorems: cut in the middle of the export size, the width is wrong. -/
example : CutLines (writeTex exTex).lines ["scale=0.300000".toList, "seed=-5".toList, "gen_type=2".toList, "export_size=81".toList] ∧
    (readTex [{ writeTex exTex with lines := ["scale=0.300000".toList, "seed=-5".toList, "gen_type=2".toList, "export_size=81".toList] }] texInit) =
      { texInit with scale := 0x3e99999a, seed := 0xfffffffb, genType := 2, exportX := 81 } := by
  refine ⟨.inr ⟨["scale=0.300000".toList, "seed=-5".toList, "gen_type=2".toList], "export_size=8192:512".toList, ["use_relative_scaling=0".toList, "export_filename=my [noise]=%d".toList],
    "export_size=81".toList, by decide +kernel, by decide, rfl⟩, by decide +kernel⟩

end FastNoise.Prefs
