import Verif.EditorRead
/-! # Reading the file the editor wrote -/
namespace FastNoise.Editor
open FastNoise.Ser FastNoise.Deser FastNoise.Stream FastNoise.Spec FastNoise.RT
open Relation

theorem noDig_nil : NoDig [] := fun _ _ h => by cases h
theorem noDig_colon (cs : List Char) : NoDig (':' :: cs) := by
  intro c cs' h
  rw [← (List.cons.inj h).1]; decide

theorem scanD_end (v : UInt32) : scanD (printD v) = some (v, []) := by
  have := scanD_printD v [] noDig_nil
  rwa [List.append_nil] at this

theorem scanF_end (v : UInt32) : scanF (printF v) = some (reloadF v, []) := by
  have := scanF_printF v [] noDig_nil
  rwa [List.append_nil] at this

theorem lit_self (key x : List Char) : lit key (key ++ x) = some x := by
  induction key with
  | nil => rfl
  | cons a as ih => rw [List.cons_append, lit, if_pos rfl]; exact ih

theorem scan1D_self (key : List Char) (v : UInt32) : scan1D key (key ++ printD v) = some v := by
  rw [scan1D, lit_self, Option.bind_some, scanD_end]; rfl

theorem scan1F_self (key : List Char) (v : UInt32) : scan1F key (key ++ printF v) = some (reloadF v) := by
  rw [scan1F, lit_self, Option.bind_some, scanF_end]; rfl

theorem scan2F_self (key : List Char) (v w : UInt32) : scan2F key (key ++ printF v ++ ':' :: printF w) = some (reloadF v, reloadF w) := by
  rw [scan2F, List.append_assoc, lit_self, Option.bind_some, scanF_printF v _ (noDig_colon _)]
  have : lit [':'] (':' :: printF w) = some (printF w) := rfl
  simp only [bind, Option.bind, this, scanF_end]; rfl

theorem scanDF_self (key : List Char) (v w : UInt32) : scanDF key (key ++ printD v ++ ':' :: printF w) = some (v, reloadF w) := by
  rw [scanDF, List.append_assoc, lit_self, Option.bind_some, scanD_printD v _ (noDig_colon _)]
  have : lit [':'] (':' :: printF w) = some (printF w) := rfl
  simp only [bind, Option.bind, this, scanF_end]; rfl

theorem scan2F_not {key line : List Char} (h : lit key line = none) : scan2F key line = none := by rw [scan2F, h]; rfl
theorem scanDF_not {key line : List Char} (h : lit key line = none) : scanDF key line = none := by rw [scanDF, h]; rfl
theorem scan1D_not {key line : List Char} (h : lit key line = none) : scan1D key line = none := by rw [scan1D, h]; rfl
theorem scan1F_not {key line : List Char} (h : lit key line = none) : scan1F key line = none := by rw [scan1F, h]; rfl

variable {reg : Reg} {ρ : List (Nat × Nat) → List (Nat × Nat)} {fuel : Nat} {det : Bool}

theorem read_var (ld : Ld) (nd : NodeData) (v : UInt32) : readLine reg ρ fuel det ("variable=".toList ++ printD v) (ld, .pending nd) = .ok (ld, .pending { nd with vars := nd.vars ++ [v] }) := by
  rw [readLine]; simp only
  rw [readNodeLine, scan2F_not rfl, scan1D_self]

theorem read_node (ld : Ld) (nd : NodeData) {i : Nat} (hi : i ≤ maxId) : readLine reg ρ fuel det ("node=".toList ++ printD (UInt32.ofNat i)) (ld, .pending nd) =
    .ok (ld, .pending { nd with lookups := nd.lookups ++ [findNode ld.ed.nodes i] }) := by
  have h : (UInt32.ofNat i).toNat = i := by rw [UInt32.toNat_ofNat']; rw [maxId_eq] at hi; exact Nat.mod_eq_of_lt (by omega)
  rw [readLine]; simp only
  rw [readNodeLine, scan2F_not rfl, scan1D_not (key := "variable=".toList) rfl, scan1D_self]
  simp only [h]

theorem read_hybrid (ld : Ld) (nd : NodeData) {i : Nat} (hi : i ≤ maxId) (v : UInt32) :
    readLine reg ρ fuel det ("hybrid=".toList ++ printD (UInt32.ofNat i) ++ ':' :: printF v) (ld, .pending nd) =
    .ok (ld, .pending { nd with hybrids := nd.hybrids ++ [(findNode ld.ed.nodes i, reloadF v)] }) := by
  have h : (UInt32.ofNat i).toNat = i := by rw [UInt32.toNat_ofNat']; rw [maxId_eq] at hi; exact Nat.mod_eq_of_lt (by omega)
  rw [readLine]; simp only
  rw [readNodeLine, scan2F_not rfl, scan1D_not (key := "variable=".toList) rfl, scan1D_not (key := "node=".toList) rfl, scanDF_self]
  simp only [h]

theorem read_place (ld : Ld) (p id : Nat) (v w : UInt32) : readLine reg ρ fuel det ("grid_pos=".toList ++ printF v ++ ':' :: printF w) (ld, .owned p id) =
    .ok ({ ld with grid := (id, (reloadF v, reloadF w)) :: ld.grid }, .owned p id) := by
  rw [readLine]; simp only
  rw [readNodeLine, scan2F_self]

theorem read_vars (ld : Ld) (vs : List UInt32) : ∀ nd : NodeData, eachDo (readLine reg ρ fuel det) (vs.map fun v => "variable=".toList ++ printD v) (ld, .pending nd) =
    .ok (ld, .pending { nd with vars := nd.vars ++ vs }) := by
  induction vs with
  | nil => intro nd; simp [eachDo]
  | cons v vs ih =>
    intro nd
    rw [List.map_cons, eachDo, read_var]
    simp only [Out.bind]
    rw [ih]; simp

theorem read_nodes (ld : Ld) (g : Option Nat → Nat) (ls : List (Option Nat)) : (∀ l ∈ ls, g l ≤ maxId) → ∀ nd : NodeData,
    eachDo (readLine reg ρ fuel det) (ls.map fun l => "node=".toList ++ printD (UInt32.ofNat (g l))) (ld, .pending nd) =
    .ok (ld, .pending { nd with lookups := nd.lookups ++ ls.map fun l => findNode ld.ed.nodes (g l) }) := by
  induction ls with
  | nil => intro _ nd; simp [eachDo]
  | cons v vs ih =>
    intro h nd
    rw [List.map_cons, eachDo, read_node _ _ (h v List.mem_cons_self)]
    simp only [Out.bind]
    rw [ih fun l hl => h l (List.mem_cons_of_mem _ hl)]; simp

theorem read_hybrids (ld : Ld) (g : Option Nat → Nat) (ls : List (Option Nat × UInt32)) : (∀ l ∈ ls, g l.1 ≤ maxId) → ∀ nd : NodeData,
    eachDo (readLine reg ρ fuel det) (ls.map fun h => "hybrid=".toList ++ printD (UInt32.ofNat (g h.1)) ++ ':' :: printF h.2) (ld, .pending nd) =
    .ok (ld, .pending { nd with hybrids := nd.hybrids ++ ls.map fun h => (findNode ld.ed.nodes (g h.1), reloadF h.2) }) := by
  induction ls with
  | nil => intro _ nd; simp [eachDo]
  | cons v vs ih =>
    intro h nd
    rw [List.map_cons, eachDo, read_hybrid _ _ (h v List.mem_cons_self)]
    simp only [Out.bind]
    rw [ih fun l hl => h l (List.mem_cons_of_mem _ hl)]; simp

/-- Previews change nothing in a sound graph of fitting nodes. -/
theorem preview_none (hreg : Registry.RegOK reg) {st : Ed} (h : Inv reg st) (hfit : AllFit reg st) (hsz : st.arena.length < 2 ^ 54) {order : List Nat} (ho : ∀ q ∈ order, q ∈ ptrs st)
    (hf : st.nodes.length < fuel) {p : Nat} (hp : p ∈ ptrs st) : preview reg order fuel p st.arena = .ok st.arena := by
  have hfix : ∀ q ∈ ptrs st, fixOne reg q st.arena = .ok st.arena :=
    fun q hq => fixOne_same hreg h.good h.loops (fun p hp => sourcesFit_of h.good hfit hp) hsz hq
  rcases preview_same hfix ho (fun q hq => h.good.lt (ho q hq)) fuel p hp with e | e
  · exact e
  · exfalso
    refine preview_stops ho h.loops fuel p st.arena [] (by simpa using hf) List.nodup_nil (by simp) hp (by simp) (by simp) (Less.refl _) (h.good.safe hp) e

theorem linkId_le {st : Ed} (h : Inv reg st) {p : Nat} (hp : p ∈ ptrs st) {nd : NodeData} (hn : st.arena[p]? = some nd) {l : Option Nat} (hl : l ∈ links nd) : linkId st l ≤ maxId := by
  cases l with
  | none => exact Nat.zero_le _
  | some c =>
    obtain ⟨⟨c', i⟩, hi, e⟩ := List.mem_map.mp (closed_nd h hp hn (mem_links.mp hl))
    simp only at e; subst e
    rw [(linkId_of_mem h hi).1]
    exact (ptr_id h hi).2

theorem ids_few {st : Ed} (h : Inv reg st) : st.nodes.length ≤ maxId := by
  have hsub : ids st ⊆ List.range' 1 maxId := by
    intro x hx
    rw [List.mem_range'_1]
    have := h.idr x hx
    omega
  have := (List.subperm_of_subset h.idnd hsub).length_le
  simpa using this

/-- The members of a node, as lines. -/
def memberLines (st : Ed) (nd : NodeData) : List (List Char) :=
  nd.vars.map (fun v => "variable=".toList ++ printD v) ++ nd.lookups.map (fun l => "node=".toList ++ printD (UInt32.ofNat (linkId st l))) ++
    nd.hybrids.map (fun h => "hybrid=".toList ++ printD (UInt32.ofNat (linkId st h.1)) ++ ':' :: printF h.2)

theorem sec_lines (st : Ed) (grid : Grid) {n : Nat × Nat} {nd : NodeData} (hn : st.arena[n.1]? = some nd) : (sec st grid n).lines =
    memberLines st nd ++ ["id=".toList ++ printD (UInt32.ofNat n.2), "grid_pos=".toList ++ printF (grid n.2).1 ++ ':' :: printF (grid n.2).2] := by
  unfold sec memberLines; simp only [hn, Option.getD_some]

theorem sec_open (hreg : Registry.RegOK reg) {st : Ed} (grid : Grid) {n : Nat × Nat} {nd : NodeData} (hn : st.arena[n.1]? = some nd) {mid : Nat} (a1 : nd.md = some mid)
    (hmid : mid < reg.length) {s : Section} (ht : s.type = nodeType) (hname : s.name = (sec st grid n).name) :
    readOpen reg s = .pending { md := some mid, vars := [], lookups := [], hybrids := [] } := by
  have hmid2 : (UInt32.ofNat mid).toNat = mid := by
    rw [UInt32.toNat_ofNat']; have := hreg.ids; exact Nat.mod_eq_of_lt (by omega)
  have hnm : (sec st grid n).name = "Node:".toList ++ printD (UInt32.ofNat mid) := by
    unfold sec; simp only [hn, Option.getD_some, a1]
  unfold readOpen
  rw [if_pos ht, hname, hnm, lit_self, Option.bind_some, scanD_end]
  simp only [hmid2]
  rw [Nat.mod_eq_of_lt (by have := hreg.ids; omega), if_pos hmid]

/-- The members of a node are read back. -/
theorem read_members {st : Ed} (h : Inv reg st) {p : Nat} (hp : p ∈ ptrs st) {nd : NodeData} (hnd : st.arena[p]? = some nd) {mid : Nat} (a1 : nd.md = some mid) (ld : Ld) :
    eachDo (readLine reg ρ fuel det) (memberLines st nd) (ld, .pending { md := some mid, vars := [], lookups := [], hybrids := [] }) =
      .ok (ld, .pending (copyNode st ld.ed.nodes nd)) := by
  have hlk : ∀ l ∈ nd.lookups, linkId st l ≤ maxId := fun l hl => linkId_le h hp hnd (List.mem_append_left _ hl)
  have hhy : ∀ l ∈ nd.hybrids, linkId st l.1 ≤ maxId := fun l hl => linkId_le h hp hnd (List.mem_append_right _ (List.mem_map.mpr ⟨l, hl, rfl⟩))
  unfold memberLines
  rw [eachDo_append, eachDo_append, read_vars]
  simp only [Out.bind]
  rw [read_nodes _ (linkId st) _ hlk]
  simp only
  rw [read_hybrids _ (linkId st) _ hhy]
  simp only [List.nil_append]
  rw [copyNode, a1]

/-- Adding a node read back from its members, under any free id, changes nothing else. -/
theorem emplace_copy (hreg : Registry.RegOK reg) {st : Ed} (h : Inv reg st) (hfit : AllFit reg st) (hρ : IsOrder ρ) {n : Nat × Nat} {qs : List (Nat × Nat)}
    (hq : Chain st (n :: qs)) (hf : qs.length + 1 < fuel) {nd : NodeData} (hnd : st.arena[n.1]? = some nd) {v : Nat} (hv : 1 ≤ v ∧ v ≤ maxId) (hfree : findNode (back st qs).nodes v = none) :
    emplaceNode reg ρ fuel (back st qs) (copyNode st (back st qs).nodes nd) v =
      .ok { back st qs with arena := (back st qs).arena ++ [copyNode st (back st qs).nodes nd], nodes := ((back st qs).arena.length, v) :: (back st qs).nodes } := by
  have hb := back_ok h hfit hq
  cases hq with
  | cons hc hn _ _ =>
  have hb0 := back_ok h hfit hc
  have hp : n.1 ∈ ptrs st := List.mem_map.mpr ⟨_, hn, rfl⟩
  have hsh := shaped_of_live h.good hp hnd
  have hnid : v ∉ ids (back st qs) := by
    intro hx
    obtain ⟨⟨p, i⟩, h1, e⟩ := List.mem_map.mp hx
    simp only at e; subst e
    rw [find_of_mem hb0.inv h1] at hfree; cases hfree
  have hinv := inv_snoc hb0.inv (nd := copyNode st (back st qs).nodes nd) (copy_shaped hsh) (fun c hc => copy_links hc) hv hnid
  have hfit' : AllFit reg { back st qs with arena := (back st qs).arena ++ [copyNode st (back st qs).nodes nd], nodes := ((back st qs).arena.length, v) :: (back st qs).nodes } := by
    have := hb.fit
    intro q hq
    have h2 := this q hq
    rw [back, ndAt_eq hnd] at h2
    exact h2
  have hlen1 : (back st qs).nodes.length = qs.length := by
    have := congrArg List.length (back_ids st qs); simpa using this
  have hlen := ids_few hb0.inv
  rw [hlen1, maxId_eq] at hlen
  unfold emplaceNode
  simp only
  rw [if_neg (by omega)]
  have hl : ((back st qs).arena ++ [copyNode st (back st qs).nodes nd]).length - 1 = (back st qs).arena.length := by simp
  rw [hl]
  have := preview_none hreg hinv hfit' (by simp only [List.length_append, List.length_singleton, back_length]; omega) (order := (ρ (back st qs).nodes).map (·.1)) (fuel := fuel)
    (by
      intro q hq
      have := (mem_order hρ).mp hq
      exact List.mem_cons_of_mem _ this) (by simp only [List.length_cons, hlen1]; exact hf) (p := (back st qs).arena.length) List.mem_cons_self
  simp only at this
  rw [this]
  rfl

/-- The line that gives a complete node its id. -/
theorem read_id (hreg : Registry.RegOK reg) {st : Ed} (h : Inv reg st) (hfit : AllFit reg st) (hρ : IsOrder ρ) {n : Nat × Nat} {qs : List (Nat × Nat)}
    (hq : Chain st (n :: qs)) (hf : qs.length + 1 < fuel) {nd : NodeData} (hnd : st.arena[n.1]? = some nd) {line : List Char} {v : UInt32} (hv : scan1D "id=".toList line = some v)
    (hv1 : 1 ≤ v.toNat ∧ v.toNat ≤ maxId) (hfree : findNode (back st qs).nodes v.toNat = none) (G : List (Nat × (UInt32 × UInt32))) (pr : Prefs)
    (n1 : scan2F "grid_pos=".toList line = none) (n2 : scan1D "variable=".toList line = none) (n3 : scan1D "node=".toList line = none) (n4 : scanDF "hybrid=".toList line = none) :
    readLine reg ρ fuel det line ({ ed := back st qs, grid := G, prefs := pr }, .pending (copyNode st (back st qs).nodes nd)) =
      .ok ({ ed := { back st qs with arena := (back st qs).arena ++ [copyNode st (back st qs).nodes nd], nodes := ((back st qs).arena.length, v.toNat) :: (back st qs).nodes }, grid := G, prefs := pr },
        .owned (back st qs).arena.length v.toNat) := by
  have hp : n.1 ∈ ptrs st := List.mem_map.mpr ⟨_, hq.sub _ List.mem_cons_self, rfl⟩
  obtain ⟨mid, m, a1, a2, a3, a4, a5⟩ := copy_shaped (st := st) (nodes := (back st qs).nodes) (shaped_of_live h.good hp hnd)
  rw [readLine]
  simp only
  rw [readNodeLine, n1, n2, n3, n4, hv]
  simp only [a1, Option.bind_some, a2, a3, a4, a5, hfree, and_self, if_true]
  rw [emplace_copy hreg h hfit hρ hq hf hnd hv1 hfree]
  rfl

/-- One node's section. -/
theorem read_section (hreg : Registry.RegOK reg) {st : Ed} (h : Inv reg st) (hfit : AllFit reg st) (grid : Grid) (hρ : IsOrder ρ) {n : Nat × Nat} {qs : List (Nat × Nat)}
    (hq : Chain st (n :: qs)) (hf : qs.length + 1 < fuel) (G : List (Nat × (UInt32 × UInt32))) (pr : Prefs) :
    readSection reg ρ fuel det (sec st grid n) { ed := back st qs, grid := G, prefs := pr } =
      .ok { ed := back st (n :: qs), grid := (n.2, (reloadF (grid n.2).1, reloadF (grid n.2).2)) :: G, prefs := pr } := by
  have hb := back_ok h hfit hq
  have hn : n ∈ st.nodes := hq.sub _ List.mem_cons_self
  have hp : n.1 ∈ ptrs st := List.mem_map.mpr ⟨_, hn, rfl⟩
  obtain ⟨nd, _, _, hnd, _⟩ := h.good.live n.1 hp
  obtain ⟨mid, m, a1, a2, _⟩ := shaped_of_live h.good hp hnd
  have hid := h.idr n.2 (List.mem_map.mpr ⟨_, hn, rfl⟩)
  have hid2 : (UInt32.ofNat n.2).toNat = n.2 := by
    rw [UInt32.toNat_ofNat']; have := hid.2; rw [maxId_eq] at this; exact Nat.mod_eq_of_lt (by omega)
  have hnofind : findNode (back st qs).nodes n.2 = none := by
    cases hfd : findNode (back st qs).nodes n.2 with
    | none => rfl
    | some q =>
      have h1 : n.2 ∈ ids (back st qs) := List.mem_map.mpr ⟨_, find_mem hfd, rfl⟩
      have h2 := hb.inv.idnd
      rw [ids, back, List.map_cons, List.nodup_cons] at h2
      exact absurd h1 h2.1
  unfold readSection
  rw [sec_open hreg grid hnd a1 (List.getElem?_eq_some_iff.mp a2).1 rfl rfl, sec_lines st grid hnd, eachDo_append, read_members h hp hnd a1]
  simp only [Out.bind, eachDo]
  rw [read_id hreg h hfit hρ hq hf hnd (scan1D_self _ _) (by rw [hid2]; exact hid) (by rw [hid2]; exact hnofind) G pr (scan2F_not rfl) (scan1D_not rfl) (scan1D_not rfl) (scanDF_not rfl), hid2]
  simp only
  rw [read_place]
  simp only
  rw [back, ndAt_eq hnd]

/-- The positions read. -/
def gridOf (grid : Grid) (qs : List (Nat × Nat)) : List (Nat × (UInt32 × UInt32)) := qs.map fun n => (n.2, (reloadF (grid n.2).1, reloadF (grid n.2).2))

theorem read_sections (hreg : Registry.RegOK reg) {st : Ed} (h : Inv reg st) (hfit : AllFit reg st) (grid : Grid) (hρ : IsOrder ρ) (pr : Prefs) : ∀ (qs : List (Nat × Nat)), Chain st qs →
    qs.length < fuel → eachDo (readSection reg ρ fuel det) (qs.reverse.map (sec st grid)) { ed := init, grid := [], prefs := pr } =
      .ok { ed := back st qs, grid := gridOf grid qs, prefs := pr } := by
  intro qs
  induction qs with
  | nil => intro _ _; rfl
  | cons n qs ih =>
    intro hq hf
    cases hq with
    | cons hc h1 h2 h3 =>
      rw [List.reverse_cons, List.map_append, eachDo_append, ih hc (by simp only [List.length_cons] at hf; omega)]
      simp only [Out.bind, List.map_cons, List.map_nil, eachDo]
      rw [read_section hreg h hfit grid hρ (Chain.cons hc h1 h2 h3) (by simpa using hf)]
      rfl

/-- What is selected after loading. -/
def selectedAfter (st : Ed) (pr pr0 : Prefs) (det : Bool) (qs : List (Nat × Nat)) : Option Nat :=
  if det then
    match pr.selected.bind fun p => st.nodes.find? fun n => n.1 = p with
    | some n => (findNode (back st qs).nodes n.2).orElse fun _ => pr0.selected
    | none => pr0.selected
  else pr0.selected

theorem readOpen_graph {s : Section} (h1 : s.type = graphType) (h2 : s.name = "Settings".toList) : readOpen reg s = .graph := by
  have h3 : graphType ≠ nodeType := by decide
  unfold readOpen
  rw [h1, if_neg h3, if_pos rfl, if_pos h2]

/-- The settings after loading. -/
def prefsAfter (st : Ed) (pr pr0 : Prefs) (det : Bool) (qs : List (Nat × Nat)) : Prefs :=
  { offset := (reloadF pr.offset.1, reloadF pr.offset.2)
    scale := reloadF pr.scale
    seed := pr.seed
    genType := pr.genType
    selected := selectedAfter st pr pr0 det qs }

theorem read_prefs {st : Ed} (h : Inv reg st) (pr pr0 : Prefs) (qs : List (Nat × Nat)) (G : List (Nat × (UInt32 × UInt32))) :
    readSection reg ρ fuel det (writePrefs st.nodes pr) { ed := back st qs, grid := G, prefs := pr0 } =
      .ok { ed := back st qs, grid := G, prefs := prefsAfter st pr pr0 det qs } := by
  have hopen : readOpen reg (writePrefs st.nodes pr) = .graph := readOpen_graph rfl rfl
  unfold readSection
  rw [hopen]
  have l1 : ∀ ld : Ld, readPrefsLine det ld ("grid_offset=".toList ++ printF pr.offset.1 ++ ':' :: printF pr.offset.2) =
      { ld with prefs := { ld.prefs with offset := (reloadF pr.offset.1, reloadF pr.offset.2) } } := by
    intro ld
    rw [readPrefsLine, scan2F_self, scan1F_not rfl, scan1D_not (key := "seed=".toList) rfl, scan1D_not (key := "gen_type=".toList) rfl, scan1D_not (key := "selected_node=".toList) rfl]
    cases det <;> rfl
  have l2 : ∀ ld : Ld, readPrefsLine det ld ("scale=".toList ++ printF pr.scale) = { ld with prefs := { ld.prefs with scale := reloadF pr.scale } } := by
    intro ld
    rw [readPrefsLine, scan2F_not rfl, scan1F_self, scan1D_not (key := "seed=".toList) rfl, scan1D_not (key := "gen_type=".toList) rfl, scan1D_not (key := "selected_node=".toList) rfl]
    cases det <;> rfl
  have l3 : ∀ ld : Ld, readPrefsLine det ld ("seed=".toList ++ printD pr.seed) = { ld with prefs := { ld.prefs with seed := pr.seed } } := by
    intro ld
    rw [readPrefsLine, scan2F_not rfl, scan1F_not rfl, scan1D_self, scan1D_not (key := "gen_type=".toList) rfl, scan1D_not (key := "selected_node=".toList) rfl]
    cases det <;> rfl
  have l4 : ∀ ld : Ld, readPrefsLine det ld ("gen_type=".toList ++ printD pr.genType) = { ld with prefs := { ld.prefs with genType := pr.genType } } := by
    intro ld
    rw [readPrefsLine, scan2F_not rfl, scan1F_not rfl, scan1D_not (key := "seed=".toList) rfl, scan1D_self, scan1D_not (key := "selected_node=".toList) rfl]
    cases det <;> rfl
  have hgr : ∀ (line : List Char) (ld : Ld), readLine reg ρ fuel det line (ld, .graph) = .ok (readPrefsLine det ld line, .graph) := fun _ _ => rfl
  have hsel : selectedAfter st pr pr0 det qs = if det then
      match pr.selected.bind fun p => st.nodes.find? fun n => n.1 = p with
      | some n => (findNode (back st qs).nodes n.2).orElse fun _ => pr0.selected
      | none => pr0.selected
    else pr0.selected := rfl
  unfold writePrefs
  simp only [List.cons_append, List.nil_append, eachDo, hgr, Out.bind, l1, l2, l3, l4]
  rw [prefsAfter, hsel]
  cases hs : pr.selected.bind fun p => st.nodes.find? fun n => n.1 = p with
  | none =>
    simp only [eachDo]
    cases det <;> rfl
  | some n =>
    have hn : n ∈ st.nodes := by
      obtain ⟨q, _, hq⟩ := Option.bind_eq_some_iff.mp hs
      exact List.mem_of_find?_eq_some hq
    have hid2 : (UInt32.ofNat n.2).toNat = n.2 := by
      rw [UInt32.toNat_ofNat']; have := (ptr_id h hn).2; rw [maxId_eq] at this; exact Nat.mod_eq_of_lt (by omega)
    have l5 : ∀ ld : Ld, readPrefsLine det ld ("selected_node=".toList ++ printD (UInt32.ofNat n.2)) =
        { ld with prefs := { ld.prefs with selected := if det then (findNode ld.ed.nodes n.2).orElse (fun _ => ld.prefs.selected) else ld.prefs.selected } } := by
      intro ld
      rw [readPrefsLine, scan2F_not rfl, scan1F_not rfl, scan1D_not (key := "seed=".toList) rfl, scan1D_not (key := "gen_type=".toList) rfl, scan1D_self]
      simp only [hid2]
      cases det with
      | false => rfl
      | true =>
        simp only [if_true]
        cases findNode ld.ed.nodes n.2 <;> rfl
    simp only [eachDo, hgr, Out.bind, l5]

theorem eachDo_same {α σ : Type} {f : α → σ → Out σ} {s : σ} : ∀ (l : List α), (∀ x ∈ l, f x s = .ok s) → eachDo f l s = .ok s := by
  intro l
  induction l with
  | nil => intro _; rfl
  | cons x xs ih =>
    intro h
    rw [eachDo, h x List.mem_cons_self]
    exact ih fun y hy => h y (List.mem_cons_of_mem _ hy)

theorem applyAll_same (hreg : Registry.RegOK reg) {st : Ed} (h : Inv reg st) (hfit : AllFit reg st) (hsz : st.arena.length < 2 ^ 54) (hρ : IsOrder ρ) (hf : st.nodes.length < fuel) :
    applyAll reg ρ fuel st = .ok st := by
  unfold applyAll
  rw [eachDo_same]
  · rfl
  · intro n hn
    exact preview_none hreg h hfit hsz (fun q hq => (mem_order hρ).mp hq) hf (List.mem_map.mpr ⟨n, (hρ _).mem_iff.mp hn, rfl⟩)

/-- Writing, then reading. -/
theorem save_load (hreg : Registry.RegOK reg) {st : Ed} (h : Inv reg st) (hfit : AllFit reg st) (grid : Grid) (pr pr0 : Prefs) (det : Bool) {ρ ρ'} (hρ : IsOrder ρ) (hρ' : IsOrder ρ')
    {fuel : Nat} (hf : st.nodes.length < fuel) : ∃ qs, Chain st qs ∧ (∀ n, n ∈ qs ↔ n ∈ st.nodes) ∧ save ρ fuel st grid pr = .ok (qs.reverse.map (sec st grid) ++ [writePrefs st.nodes pr]) ∧
      load reg ρ' fuel det pr0 (qs.reverse.map (sec st grid) ++ [writePrefs st.nodes pr]) =
        .ok { ed := back st qs, grid := gridOf grid qs, prefs := prefsAfter st pr pr0 det qs } := by
  obtain ⟨qs, e1, e2, e3⟩ := writeNodes_spec h grid hρ hf
  have hb := back_ok h hfit e2
  have hle : qs.length ≤ st.nodes.length := (List.subperm_of_subset e2.nodup (fun n hn => (e3 n).mp hn)).length_le
  have hlen : (back st qs).nodes.length = qs.length := by
    have := congrArg List.length (back_ids st qs); simpa using this
  have hfew := ids_few hb.inv
  refine ⟨qs, e2, e3, ?_, ?_⟩
  · unfold save; rw [e1]; rfl
  · unfold load
    rw [eachDo_append, read_sections hreg h hfit grid hρ' pr0 qs e2 (by omega)]
    simp only [Out.bind, eachDo]
    rw [read_prefs h]
    simp only
    rw [applyAll_same hreg hb.inv hb.fit (by rw [back_length, ← hlen]; rw [maxId_eq] at hfew; omega) hρ' (by omega)]

end FastNoise.Editor
