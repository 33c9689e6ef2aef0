import Verif.PrefsSpec
import Verif.EditorAnyFile
import Verif.EditorFloat
/-! Lemmas for the settings of the previews (C53). -/
namespace FastNoise.Prefs
open FastNoise.Editor

theorem setD_self (key : List Char) (v x : UInt32) : setD key (key ++ printD v) x = v := by rw [setD, scan1D_self]; rfl
theorem setF_self (key : List Char) (v x : UInt32) : setF key (key ++ printF v) x = reloadF v := by rw [setF, scan1F_self]; rfl
theorem setD_not {key line : List Char} (h : lit key line = none) (x : UInt32) : setD key line x = x := by rw [setD, scan1D_not h]; rfl
theorem setF_not {key line : List Char} (h : lit key line = none) (x : UInt32) : setF key line x = x := by rw [setF, scan1F_not h]; rfl
theorem setDD_not {key line : List Char} (h : lit key line = none) (x : UInt32 × UInt32) : setDD key line x = x := by rw [setDD, h]; rfl
theorem setDD_self (key : List Char) (v w : UInt32) (x : UInt32 × UInt32) : setDD key (key ++ printD v ++ ':' :: printD w) x = (v, w) := by
  rw [setDD, List.append_assoc, lit_self, Option.bind_some, scanD_printD v _ (noDig_colon _)]
  have : lit [':'] (':' :: printD w) = some (printD w) := rfl
  simp only [this, Option.bind_some, scanD_end]

/-! ## Texture preview: lines that are written -/

theorem tex1 (p : TexPrefs) (v : UInt32) : readTexLine p ("scale=".toList ++ printF v) = { p with scale := reloadF v } := by
  rw [readTexLine, setF_self, setD_not rfl, setD_not rfl, setDD_not rfl, scan1D_not rfl, show lit "export_filename=".toList ("scale=".toList ++ printF v) = none from rfl]; rfl
theorem tex2 (p : TexPrefs) (v : UInt32) : readTexLine p ("seed=".toList ++ printD v) = { p with seed := v } := by
  rw [readTexLine, setD_self, setF_not rfl, setD_not rfl, setDD_not rfl, scan1D_not rfl, show lit "export_filename=".toList ("seed=".toList ++ printD v) = none from rfl]; rfl
theorem tex3 (p : TexPrefs) (v : UInt32) : readTexLine p ("gen_type=".toList ++ printD v) = { p with genType := v } := by
  rw [readTexLine, setD_self, setF_not rfl, setD_not rfl, setDD_not rfl, scan1D_not rfl, show lit "export_filename=".toList ("gen_type=".toList ++ printD v) = none from rfl]; rfl
theorem tex4 (p : TexPrefs) (v w : UInt32) : readTexLine p ("export_size=".toList ++ printD v ++ ':' :: printD w) = { p with exportX := v, exportY := w } := by
  rw [readTexLine, setDD_self, setF_not rfl, setD_not rfl, setD_not rfl, scan1D_not rfl,
    show lit "export_filename=".toList ("export_size=".toList ++ printD v ++ ':' :: printD w) = none from rfl]; rfl
theorem tex5 (p : TexPrefs) (b : Bool) : readTexLine p ("use_relative_scaling=".toList ++ printD (if b then 1 else 0)) = { p with relative := b } := by
  rw [readTexLine, scan1D_self, setF_not rfl, setD_not rfl, setD_not rfl, setDD_not rfl,
    show lit "export_filename=".toList ("use_relative_scaling=".toList ++ printD (if b then 1 else 0)) = none from rfl]
  cases b <;> rfl
theorem tex6 (p : TexPrefs) (n : List Char) : readTexLine p ("export_filename=".toList ++ n) = { p with filename := n } := by
  rw [readTexLine, setF_not rfl, setD_not rfl, setD_not rfl, setDD_not rfl, scan1D_not rfl, lit_self]; rfl

/-- The state after the section was read. -/
theorem tex_read (p p0 : TexPrefs) : (writeTex p).lines.foldl readTexLine p0 = { p with scale := reloadF p.scale } := by
  simp only [writeTex, List.foldl_cons, List.foldl_nil, tex1, tex2, tex3, tex4, tex5, tex6]

/-- Only the sections of the texture preview count. -/
theorem tex_filter (file : List Section) (p : TexPrefs) : readTex file p = readTex (ofType texType file) p := by
  unfold readTex ofType
  induction file generalizing p with
  | nil => rfl
  | cons s ss ih =>
    by_cases h : s.type = texType
    · rw [List.filter_cons_of_pos (by simpa using h), List.foldl_cons, List.foldl_cons, ih]
    · rw [List.filter_cons_of_neg (by simpa using h), List.foldl_cons, readTexSection, if_neg (fun hc => h hc.1), ih]

theorem tex_lines {s : Section} {file : List Section} (h : ofType texType file = [s]) (hn : s.name = "Settings".toList) (p : TexPrefs) : readTex file p = s.lines.foldl readTexLine p := by
  have hs : s.type = texType := by
    have : s ∈ ofType texType file := h ▸ List.mem_singleton_self s
    simpa using (List.mem_filter.mp this).2
  rw [tex_filter, h]
  exact if_pos ⟨hs, hn⟩

/-- A line changes at most one setting. -/
theorem tex_one (p : TexPrefs) (line : List Char) : ∃ s : TexSetting, ∀ t ≠ s, t.same Eq p (readTexLine p line) := by
  have key : ∀ k : List Char, lit k line = none ∨ ∃ r, line = k ++ r := by
    intro k
    cases h : lit k line with
    | none => exact .inl rfl
    | some r => obtain ⟨r, hr⟩ := lit_some h; exact .inr ⟨r, hr.symm⟩
  rcases key "scale=".toList with h1 | ⟨r, rfl⟩
  swap
  · refine ⟨.scale, fun t ht => ?_⟩
    rw [readTexLine, setD_not rfl, setD_not rfl, setDD_not rfl, scan1D_not rfl, show lit "export_filename=".toList ("scale=".toList ++ r) = none from rfl]
    cases t <;> first | exact absurd rfl ht | exact ⟨rfl, rfl⟩ | rfl
  rcases key "seed=".toList with h2 | ⟨r, rfl⟩
  swap
  · refine ⟨.seed, fun t ht => ?_⟩
    rw [readTexLine, setF_not rfl, setD_not (key := "gen_type=".toList) rfl, setDD_not rfl, scan1D_not rfl, show lit "export_filename=".toList ("seed=".toList ++ r) = none from rfl]
    cases t <;> first | exact absurd rfl ht | exact ⟨rfl, rfl⟩ | rfl
  rcases key "gen_type=".toList with h3 | ⟨r, rfl⟩
  swap
  · refine ⟨.genType, fun t ht => ?_⟩
    rw [readTexLine, setF_not rfl, setD_not (key := "seed=".toList) rfl, setDD_not rfl, scan1D_not rfl, show lit "export_filename=".toList ("gen_type=".toList ++ r) = none from rfl]
    cases t <;> first | exact absurd rfl ht | exact ⟨rfl, rfl⟩ | rfl
  rcases key "export_size=".toList with h4 | ⟨r, rfl⟩
  swap
  · refine ⟨.exportSize, fun t ht => ?_⟩
    rw [readTexLine, setF_not rfl, setD_not rfl, setD_not rfl, scan1D_not rfl, show lit "export_filename=".toList ("export_size=".toList ++ r) = none from rfl]
    cases t <;> first | exact absurd rfl ht | exact ⟨rfl, rfl⟩ | rfl
  rcases key "use_relative_scaling=".toList with h5 | ⟨r, rfl⟩
  swap
  · refine ⟨.relative, fun t ht => ?_⟩
    rw [readTexLine, setF_not rfl, setD_not rfl, setD_not rfl, setDD_not rfl, show lit "export_filename=".toList ("use_relative_scaling=".toList ++ r) = none from rfl]
    cases t <;> first | exact absurd rfl ht | exact ⟨rfl, rfl⟩ | rfl
  · refine ⟨.filename, fun t ht => ?_⟩
    rw [readTexLine, setF_not h1, setD_not h2, setD_not h3, setDD_not h4, scan1D_not h5]
    cases t <;> first | exact absurd rfl ht | exact ⟨rfl, rfl⟩ | rfl

/-- Whole lines only. -/
theorem tex_take (p p0 : TexPrefs) (n : Nat) (t : TexSetting) :
    t.same SavedValue p (((writeTex p).lines.take n).foldl readTexLine p0) ∨ t.same Eq p0 (((writeTex p).lines.take n).foldl readTexLine p0) := by
  have hv := savedValue_reload p.scale
  have big : ∀ m, 6 ≤ m → (writeTex p).lines.take m = (writeTex p).lines := fun m hm => List.take_of_length_le (by simpa [writeTex] using hm)
  rcases Nat.lt_or_ge n 6 with h | h
  · have hn : n = 0 ∨ n = 1 ∨ n = 2 ∨ n = 3 ∨ n = 4 ∨ n = 5 := by omega
    rcases hn with rfl | rfl | rfl | rfl | rfl | rfl <;>
      simp only [writeTex, List.take_succ_cons, List.take_zero, List.foldl_cons, List.foldl_nil, tex1, tex2, tex3, tex4, tex5, tex6] <;>
      cases t <;> simp [TexSetting.same, hv]
  · rw [big n h, tex_read]
    left
    cases t <;> simp [TexSetting.same, hv]

/-! ## Mesh preview -/

variable {C : Type} (k : Srgb C)

theorem mesh1 (p : MeshPrefs C) (v : UInt32) : readMeshLine k p ("tri_limit=".toList ++ printD v) = { p with triLimit := v } := by
  rw [readMeshLine, setD_self, setF_not rfl, setF_not rfl, setF_not rfl, setD_not rfl, setD_not rfl, setD_not rfl, scan1D_not (key := "color=".toList) rfl, scan1D_not rfl]
theorem mesh2 (p : MeshPrefs C) (v : UInt32) : readMeshLine k p ("scale=".toList ++ printF v) = { p with scale := reloadF v } := by
  rw [readMeshLine, setF_self, setF_not rfl, setF_not rfl, setD_not rfl, setD_not rfl, setD_not rfl, setD_not rfl, scan1D_not (key := "color=".toList) rfl, scan1D_not rfl]
theorem mesh3 (p : MeshPrefs C) (v : UInt32) : readMeshLine k p ("iso_surface=".toList ++ printF v) = { p with iso := reloadF v } := by
  rw [readMeshLine, setF_self, setF_not rfl, setF_not rfl, setD_not rfl, setD_not rfl, setD_not rfl, setD_not rfl, scan1D_not (key := "color=".toList) rfl, scan1D_not rfl]
theorem mesh4 (p : MeshPrefs C) (v : UInt32) : readMeshLine k p ("heightmap_multiplier=".toList ++ printF v) = { p with multiplier := reloadF v } := by
  rw [readMeshLine, setF_self, setF_not rfl, setF_not rfl, setD_not rfl, setD_not rfl, setD_not rfl, setD_not rfl, scan1D_not (key := "color=".toList) rfl, scan1D_not rfl]
theorem mesh5 (p : MeshPrefs C) (v : UInt32) : readMeshLine k p ("seed=".toList ++ printD v) = { p with seed := v } := by
  rw [readMeshLine, setD_self, setF_not rfl, setF_not rfl, setF_not rfl, setD_not rfl, setD_not rfl, setD_not rfl, scan1D_not (key := "color=".toList) rfl, scan1D_not rfl]
theorem mesh6 (p : MeshPrefs C) (v : UInt32) : readMeshLine k p ("color=".toList ++ printD v) = { p with color := k.fromInt v } := by
  rw [readMeshLine, scan1D_self, setF_not rfl, setF_not rfl, setF_not rfl, setD_not rfl, setD_not rfl, setD_not rfl, setD_not rfl]
theorem mesh7 (p : MeshPrefs C) (v : UInt32) : readMeshLine k p ("mesh_type=".toList ++ printD v) = { p with meshType := v } := by
  rw [readMeshLine, setD_self, setF_not rfl, setF_not rfl, setF_not rfl, setD_not rfl, setD_not rfl, setD_not rfl, scan1D_not (key := "color=".toList) rfl, scan1D_not rfl]
theorem mesh8 (p : MeshPrefs C) (v : UInt32) : readMeshLine k p ("up_axis=".toList ++ printD v) = { p with upAxis := v } := by
  rw [readMeshLine, setD_self, setF_not rfl, setF_not rfl, setF_not rfl, setD_not rfl, setD_not rfl, setD_not rfl, scan1D_not (key := "color=".toList) rfl, scan1D_not rfl]
theorem mesh9 (p : MeshPrefs C) (b : Bool) : readMeshLine k p ("enabled=".toList ++ printD (if b then 1 else 0)) = { p with enabled := b } := by
  rw [readMeshLine, scan1D_self, setF_not rfl, setF_not rfl, setF_not rfl, setD_not rfl, setD_not rfl, setD_not rfl, setD_not rfl, scan1D_not (key := "color=".toList) rfl]
  cases b <;> rfl

theorem mesh_read (p p0 : MeshPrefs C) : (writeMesh k p).lines.foldl (readMeshLine k) p0 =
    { p with scale := reloadF p.scale, iso := reloadF p.iso, multiplier := reloadF p.multiplier, color := k.fromInt (k.toInt p.color), tint := p0.tint } := by
  simp only [writeMesh, List.foldl_cons, List.foldl_nil, mesh1, mesh2, mesh3, mesh4, mesh5, mesh6, mesh7, mesh8, mesh9]

theorem mesh_filter (file : List Section) (p : MeshPrefs C) : readMesh k file p = readMesh k (ofType meshType file) p := by
  unfold readMesh ofType
  induction file generalizing p with
  | nil => rfl
  | cons s ss ih =>
    by_cases h : s.type = meshType
    · rw [List.filter_cons_of_pos (by simpa using h), List.foldl_cons, List.foldl_cons, ih]
    · rw [List.filter_cons_of_neg (by simpa using h), List.foldl_cons, readMeshSection, if_neg (fun hc => h hc.1), ih]

theorem mesh_lines {s : Section} {file : List Section} (h : ofType meshType file = [s]) (hn : s.name = "Settings".toList) (p : MeshPrefs C) :
    readMesh k file p = s.lines.foldl (readMeshLine k) p := by
  have hs : s.type = meshType := by
    have : s ∈ ofType meshType file := h ▸ List.mem_singleton_self s
    simpa using (List.mem_filter.mp this).2
  rw [mesh_filter, h]
  exact if_pos ⟨hs, hn⟩

/-! ## The graph of the editor in the same file -/

theorem editor_none {reg : Ser.Reg} {ρ : List (Nat × Nat) → List (Nat × Nat)} {fuel : Nat} {det : Bool} (lines : List (List Char)) (ld : Ld) :
    eachDo (readLine reg ρ fuel det) lines (ld, .none) = .ok (ld, .none) := by
  induction lines with
  | nil => rfl
  | cons l ls ih => exact ih

theorem editor_skip {reg : Ser.Reg} {ρ : List (Nat × Nat) → List (Nat × Nat)} {fuel : Nat} {det : Bool} {s : Section} (h1 : s.type ≠ nodeType) (h2 : s.type ≠ graphType) (ld : Ld) :
    readSection reg ρ fuel det s ld = .ok ld := by
  unfold readSection readOpen
  rw [if_neg h1, if_neg h2, editor_none]; rfl

theorem editor_filter {reg : Ser.Reg} {ρ : List (Nat × Nat) → List (Nat × Nat)} {fuel : Nat} {det : Bool} (file : List Section) (ld : Ld) :
    eachDo (readSection reg ρ fuel det) file ld = eachDo (readSection reg ρ fuel det) (ofEditor file) ld := by
  unfold ofEditor
  induction file generalizing ld with
  | nil => rfl
  | cons s ss ih =>
    by_cases h : s.type = nodeType ∨ s.type = graphType
    · rw [List.filter_cons_of_pos (by simpa using h), eachDo, eachDo]
      congr 1
      exact funext ih
    · rw [List.filter_cons_of_neg (by simpa using h), eachDo, editor_skip (fun e => h (.inl e)) (fun e => h (.inr e))]
      exact ih ld

theorem load_filter (reg : Ser.Reg) (ρ : List (Nat × Nat) → List (Nat × Nat)) (fuel : Nat) (det : Bool) (pr : Editor.Prefs) (file : List Section) :
    load reg ρ fuel det pr file = load reg ρ fuel det pr (ofEditor file) := by
  unfold load
  rw [editor_filter]

/-- A cut list of lines. -/
theorem cut_take {lines lines' : List (List Char)} (h : CutLines lines lines') : ∃ n, lines' = lines.take n ∨ ∃ l', lines' = lines.take n ++ [l'] := by
  rcases h with h | ⟨a, l, b, l', e, _, rfl⟩
  · exact ⟨lines'.length, .inl (List.prefix_iff_eq_take.mp h)⟩
  · exact ⟨a.length, .inr ⟨l', by rw [e, List.take_left]⟩⟩

theorem mesh_one (p : MeshPrefs C) (line : List Char) : ∃ s : MeshSetting, ∀ t ≠ s, t.same k Eq p (readMeshLine k p line) := by
  have key : ∀ k : List Char, lit k line = none ∨ ∃ r, line = k ++ r := by
    intro k
    cases h : lit k line with
    | none => exact .inl rfl
    | some r => obtain ⟨r, hr⟩ := lit_some h; exact .inr ⟨r, hr.symm⟩
  rcases key "tri_limit=".toList with h1 | ⟨r, rfl⟩
  swap
  · refine ⟨.triLimit, fun t ht => ?_⟩
    rw [readMeshLine, setF_not rfl, setF_not rfl, setF_not rfl, setD_not (key := "seed=".toList) rfl, setD_not (key := "mesh_type=".toList) rfl, setD_not (key := "up_axis=".toList) rfl,
      scan1D_not (key := "color=".toList) rfl, scan1D_not rfl]
    cases t <;> first | exact absurd rfl ht | rfl
  rcases key "scale=".toList with h2 | ⟨r, rfl⟩
  swap
  · refine ⟨.scale, fun t ht => ?_⟩
    rw [readMeshLine, setF_not (key := "iso_surface=".toList) rfl, setF_not (key := "heightmap_multiplier=".toList) rfl, setD_not rfl, setD_not rfl, setD_not rfl, setD_not rfl,
      scan1D_not (key := "color=".toList) rfl, scan1D_not rfl]
    cases t <;> first | exact absurd rfl ht | rfl
  rcases key "iso_surface=".toList with h3 | ⟨r, rfl⟩
  swap
  · refine ⟨.iso, fun t ht => ?_⟩
    rw [readMeshLine, setF_not (key := "scale=".toList) rfl, setF_not (key := "heightmap_multiplier=".toList) rfl, setD_not rfl, setD_not rfl, setD_not rfl, setD_not rfl,
      scan1D_not (key := "color=".toList) rfl, scan1D_not rfl]
    cases t <;> first | exact absurd rfl ht | rfl
  rcases key "heightmap_multiplier=".toList with h4 | ⟨r, rfl⟩
  swap
  · refine ⟨.multiplier, fun t ht => ?_⟩
    rw [readMeshLine, setF_not (key := "scale=".toList) rfl, setF_not (key := "iso_surface=".toList) rfl, setD_not rfl, setD_not rfl, setD_not rfl, setD_not rfl,
      scan1D_not (key := "color=".toList) rfl, scan1D_not rfl]
    cases t <;> first | exact absurd rfl ht | rfl
  rcases key "seed=".toList with h5 | ⟨r, rfl⟩
  swap
  · refine ⟨.seed, fun t ht => ?_⟩
    rw [readMeshLine, setF_not rfl, setF_not rfl, setF_not rfl, setD_not (key := "tri_limit=".toList) rfl, setD_not (key := "mesh_type=".toList) rfl, setD_not (key := "up_axis=".toList) rfl,
      scan1D_not (key := "color=".toList) rfl, scan1D_not rfl]
    cases t <;> first | exact absurd rfl ht | rfl
  rcases key "mesh_type=".toList with h6 | ⟨r, rfl⟩
  swap
  · refine ⟨.meshType, fun t ht => ?_⟩
    rw [readMeshLine, setF_not rfl, setF_not rfl, setF_not rfl, setD_not (key := "tri_limit=".toList) rfl, setD_not (key := "seed=".toList) rfl, setD_not (key := "up_axis=".toList) rfl,
      scan1D_not (key := "color=".toList) rfl, scan1D_not rfl]
    cases t <;> first | exact absurd rfl ht | rfl
  rcases key "up_axis=".toList with h7 | ⟨r, rfl⟩
  swap
  · refine ⟨.upAxis, fun t ht => ?_⟩
    rw [readMeshLine, setF_not rfl, setF_not rfl, setF_not rfl, setD_not (key := "tri_limit=".toList) rfl, setD_not (key := "seed=".toList) rfl, setD_not (key := "mesh_type=".toList) rfl,
      scan1D_not (key := "color=".toList) rfl, scan1D_not rfl]
    cases t <;> first | exact absurd rfl ht | rfl
  rcases key "color=".toList with h8 | ⟨r, rfl⟩
  swap
  · refine ⟨.color, fun t ht => ?_⟩
    rw [readMeshLine, setF_not rfl, setF_not rfl, setF_not rfl, setD_not rfl, setD_not rfl, setD_not rfl, setD_not rfl, scan1D_not (key := "enabled=".toList) rfl]
    cases t <;> first | exact absurd rfl ht | rfl | skip
    unfold MeshSetting.same
    cases scan1D "color=".toList ("color=".toList ++ r) <;> rfl
  · refine ⟨.enabled, fun t ht => ?_⟩
    rw [readMeshLine, setD_not h1, setF_not h2, setF_not h3, setF_not h4, setD_not h5, setD_not h6, setD_not h7, scan1D_not h8]
    cases t <;> first | exact absurd rfl ht | rfl

theorem mesh_take (hk : ∀ c, k.toInt (k.fromInt (k.toInt c)) = k.toInt c) (p p0 : MeshPrefs C) (n : Nat) (t : MeshSetting) :
    t.same k SavedValue p (((writeMesh k p).lines.take n).foldl (readMeshLine k) p0) ∨ t.same k Eq p0 (((writeMesh k p).lines.take n).foldl (readMeshLine k) p0) := by
  have hv := savedValue_reload p.scale
  have hv2 := savedValue_reload p.iso
  have hv3 := savedValue_reload p.multiplier
  have big : ∀ m, 9 ≤ m → (writeMesh k p).lines.take m = (writeMesh k p).lines := fun m hm => List.take_of_length_le (by simpa [writeMesh] using hm)
  rcases Nat.lt_or_ge n 9 with h | h
  · have hn : n = 0 ∨ n = 1 ∨ n = 2 ∨ n = 3 ∨ n = 4 ∨ n = 5 ∨ n = 6 ∨ n = 7 ∨ n = 8 := by omega
    rcases hn with rfl | rfl | rfl | rfl | rfl | rfl | rfl | rfl | rfl <;>
      simp only [writeMesh, List.take_succ_cons, List.take_zero, List.foldl_cons, List.foldl_nil, mesh1, mesh2, mesh3, mesh4, mesh5, mesh6, mesh7, mesh8, mesh9] <;>
      cases t <;> simp [MeshSetting.same, hv, hv2, hv3, hk]
  · rw [big n h, mesh_read]
    left
    cases t <;> simp [MeshSetting.same, hv, hv2, hv3, hk]

end FastNoise.Prefs
