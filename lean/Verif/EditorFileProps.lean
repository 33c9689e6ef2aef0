import Verif.EditorProps
import Verif.EditorRestore
/-! # C50: the node editor's settings file -/
namespace FastNoise.Editor
open FastNoise.Ser FastNoise.Deser FastNoise.Stream FastNoise.Spec FastNoise.RT
open Relation

/-- **C50** Whatever graph a session made: closing the editor writes a file, and opening the editor with it brings the same graph back - the same nodes with the same ids, types, variables
and links, at the same places, and the same settings.  Integers and links are exact; other numbers keep six decimals (`SavedValue`).  Editing can go on from
there (`Session`: all of C35 holds again). -/
theorem C50_restores (st : Ed) (h : Session Registry.reg st) (grid : Grid) (pr pr0 : Prefs) (detached : Bool) (ρ ρ' : List (Nat × Nat) → List (Nat × Nat)) (hρ : SomeOrder ρ) (hρ' : SomeOrder ρ')
    (fuel : Nat) (hf : st.nodes.length < fuel) :
    ∃ file ld, save ρ fuel st grid pr = .ok file ∧ load Registry.reg ρ' fuel detached pr0 file = .ok ld ∧ Restored SavedValue st grid pr pr0 detached ld ∧ FileOk file ∧ Session Registry.reg ld.ed := by
  have hi := inv_of_session few_reg warpFirst_reg h
  have hfit := fit_of_session few_reg warpFirst_reg h
  obtain ⟨qs, q1, q2, q3, q4⟩ := save_load Registry.reg_ok hi hfit grid pr pr0 detached hρ hρ' hf
  have hok := cut_ok hi q1 (Or.inl (List.prefix_rfl (l := qs.reverse.map (sec st grid) ++ [writePrefs st.nodes pr])))
  refine ⟨_, _, q3, q4, restored hi hfit q1 q2 ?_, hok, .opened hok hρ' q4⟩
  exact ⟨fun _ _ _ _ _ _ => savedValue_reload _, fun _ _ _ => ⟨savedValue_reload _, savedValue_reload _⟩, ⟨savedValue_reload _, savedValue_reload _⟩, savedValue_reload _⟩

/-- **C50** If every number was typed in with at most six decimals, or is 16 or larger, nothing at all is lost. -/
theorem C50_exact (st : Ed) (h : Session Registry.reg st) (grid : Grid) (pr pr0 : Prefs) (detached : Bool) (hk : AllValues Kept st grid pr) (ρ ρ' : List (Nat × Nat) → List (Nat × Nat))
    (hρ : SomeOrder ρ) (hρ' : SomeOrder ρ') (fuel : Nat) (hf : st.nodes.length < fuel) :
    ∃ file ld, save ρ fuel st grid pr = .ok file ∧ load Registry.reg ρ' fuel detached pr0 file = .ok ld ∧ Restored Eq st grid pr pr0 detached ld := by
  have hi := inv_of_session few_reg warpFirst_reg h
  have hfit := fit_of_session few_reg warpFirst_reg h
  obtain ⟨qs, q1, q2, q3, q4⟩ := save_load Registry.reg_ok hi hfit grid pr pr0 detached hρ hρ' hf
  refine ⟨_, _, q3, q4, restored hi hfit q1 q2 ?_⟩
  have key : ∀ v, Kept v → v = reloadF v := fun v hv => (kept_reload hv).symm
  exact ⟨fun p nd x a b c => key _ (hk.hybrids p nd x a b c), fun p id a => ⟨key _ (hk.places p id a).1, key _ (hk.places p id a).2⟩, ⟨key _ hk.offset.1, key _ hk.offset.2⟩, key _ hk.scale⟩

/-- **C50** Closing and opening the editor again, and again, changes nothing more: what was loaded once comes back exactly. -/
theorem C50_stable (st : Ed) (h : Session Registry.reg st) (grid : Grid) (pr pr0 : Prefs) (detached : Bool) (ρ ρ' : List (Nat × Nat) → List (Nat × Nat)) (hρ : SomeOrder ρ) (hρ' : SomeOrder ρ')
    (fuel : Nat) (hf : st.nodes.length < fuel) (file : List Section) (ld : Ld) (hs : save ρ fuel st grid pr = .ok file) (hl : load Registry.reg ρ' fuel detached pr0 file = .ok ld)
    (grid' : Grid) (hg : ∀ id v, ld.grid.lookup id = some v → grid' id = v) (pr1 : Prefs) (detached' : Bool)
    (ρ₂ ρ₂' : List (Nat × Nat) → List (Nat × Nat)) (hρ₂ : SomeOrder ρ₂) (hρ₂' : SomeOrder ρ₂') :
    ∃ file' ld', save ρ₂ fuel ld.ed grid' ld.prefs = .ok file' ∧ load Registry.reg ρ₂' fuel detached' pr1 file' = .ok ld' ∧ Restored Eq ld.ed grid' ld.prefs pr1 detached' ld' := by
  have hi := inv_of_session few_reg warpFirst_reg h
  have hfit := fit_of_session few_reg warpFirst_reg h
  obtain ⟨qs, q1, q2, q3, q4⟩ := save_load Registry.reg_ok hi hfit grid pr pr0 detached hρ hρ' hf
  rw [hs] at q3; cases q3
  rw [hl] at q4; cases q4
  have hb := back_ok hi hfit q1
  have hle : qs.length ≤ st.nodes.length := (List.subperm_of_subset q1.nodup (fun n hn => (q2 n).mp hn)).length_le
  have hlen : (back st qs).nodes.length = qs.length := by
    have := congrArg List.length (back_ids st qs); simpa using this
  obtain ⟨qs', r1, r2, r3, r4⟩ := save_load (fuel := fuel) Registry.reg_ok hb.inv hb.fit grid' (prefsAfter st pr pr0 detached qs) pr1 detached' hρ₂ hρ₂' (by rw [hlen]; omega)
  refine ⟨_, _, r3, r4, restored hb.inv hb.fit r1 r2 ?_⟩
  refine ⟨fun p nd x a b c => (back_values hi hfit q1 a b c).symm, fun p id a => ?_, ⟨(reloadF_idem _).symm, (reloadF_idem _).symm⟩, (reloadF_idem _).symm⟩
  obtain ⟨q, hq⟩ := mem_back.mp ⟨p, a⟩
  rw [hg id _ (lookup_gridOf hq)]
  exact ⟨(reloadF_idem _).symm, (reloadF_idem _).symm⟩

/-- **C50** Whatever is in the settings file - unknown types, wrong numbers of members, links to missing nodes, duplicate ids, lines of any other program -, the editor opens with a sound
graph and without undefined behaviour.  Partial: node sections must not set members after the id and ids must leave room for the attribute bits (`FileOk`), see `C50_file_uaf` and
`C34_large_id_collides`. -/
theorem C50_any_file_partial (file : List Section) (h : FileOk file) (pr : Prefs) (detached : Bool) (ρ : List (Nat × Nat) → List (Nat × Nat)) (hρ : SomeOrder ρ) (fuel : Nat) (hf : file.length + 1 < fuel) :
    ∃ ld, load Registry.reg ρ fuel detached pr file = .ok ld ∧ Sound Registry.reg ld.ed ∧ ld.ed.nodes.length ≤ file.length ∧ Session Registry.reg ld.ed := by
  obtain ⟨o1, o2, o3⟩ := load_ok (fuel := fuel) (det := detached) warpFirst_reg hρ h pr
  cases hld : load Registry.reg ρ fuel detached pr file with
  | ub => exact absurd hld o1
  | deep => exact absurd hld (o2 hf)
  | ok ld => exact ⟨ld, rfl, sound_of_inv (o3 ld hld).1.1, (o3 ld hld).2, .opened h hρ hld⟩

/-- **C50** If the program dies while the file is written - after any number of sections, lines and characters -, the editor still opens with a sound graph, and every node whose section
was written to its end is there, as it was. -/
theorem C50_crash (st : Ed) (h : Session Registry.reg st) (grid : Grid) (pr pr0 : Prefs) (detached : Bool) (ρ ρ' : List (Nat × Nat) → List (Nat × Nat)) (hρ : SomeOrder ρ) (hρ' : SomeOrder ρ')
    (fuel : Nat) (hf : st.nodes.length + 2 < fuel) (file file' : List Section) (hs : save ρ fuel st grid pr = .ok file) (hc : Cut file file') :
    ∃ ld, load Registry.reg ρ' fuel detached pr0 file' = .ok ld ∧ Sound Registry.reg ld.ed ∧ Session Registry.reg ld.ed ∧
      ∀ (s : Section) (p id : Nat) (nd : NodeData), Whole file file' s → (p, id) ∈ st.nodes → st.arena[p]? = some nd → ("id=".toList ++ printD (UInt32.ofNat id)) ∈ s.lines →
        ∃ p' nd', (p', id) ∈ ld.ed.nodes ∧ ld.ed.arena[p']? = some nd' ∧ SameNode SavedValue st.nodes ld.ed.nodes nd nd' ∧
          ∃ v, ld.grid.lookup id = some v ∧ SavedValue (grid id).1 v.1 ∧ SavedValue (grid id).2 v.2 := by
  have hi := inv_of_session few_reg warpFirst_reg h
  have hfit := fit_of_session few_reg warpFirst_reg h
  obtain ⟨qs, q1, q2, q3, -⟩ := save_load (fuel := fuel) Registry.reg_ok hi hfit grid pr pr0 detached hρ hρ' (by omega)
  rw [hs] at q3; cases q3
  have hle : qs.length ≤ st.nodes.length := (List.subperm_of_subset q1.nodup (fun n hn => (q2 n).mp hn)).length_le
  obtain ⟨ld, l1, l2, qs1, qs2, l3, l4, l5⟩ := crash_load (fuel := fuel) (det := detached) Registry.reg_ok warpFirst_reg hi hfit grid pr pr0 hρ' q1 (by omega) hc
  refine ⟨ld, l1, sound_of_inv l2.1, .opened (cut_ok hi q1 hc) hρ' l1, ?_⟩
  intro s p id nd hw hp hnd hid
  have hmem : s ∈ qs.reverse.map (sec st grid) ++ [writePrefs st.nodes pr] := by
    obtain ⟨pre, w1, _⟩ := hw
    exact w1.subset (by simp)
  have hsec : s = sec st grid (p, id) := by
    rcases List.mem_append.mp hmem with hm | hm
    · obtain ⟨m, hm', rfl⟩ := List.mem_map.mp hm
      have hm := q1.sub m (List.mem_reverse.mp hm')
      obtain ⟨ndm, _, _, hndm, _⟩ := hi.good.live m.1 (List.mem_map.mpr ⟨_, hm, rfl⟩)
      rw [sec_lines st grid hndm] at hid
      rcases List.mem_append.mp hid with h1 | h1
      · exact absurd (List.prefix_append _ _) (member_not_id h1)
      · simp only [List.mem_cons, List.not_mem_nil, or_false] at h1
        rcases h1 with h1 | h1
        · have h4 := congrArg (scan1D "id=".toList) h1
          rw [scan1D_self, scan1D_self] at h4
          have h5 := congrArg UInt32.toNat (Option.some.inj h4)
          have hx : ∀ x ∈ st.nodes, (UInt32.ofNat x.2).toNat = x.2 := by
            intro x hx
            have := (hi.idr x.2 (List.mem_map.mpr ⟨_, hx, rfl⟩)).2
            rw [UInt32.toNat_ofNat']; rw [maxId_eq] at this; exact Nat.mod_eq_of_lt (by omega)
          rw [hx (p, id) hp, hx m hm] at h5
          obtain ⟨q, j⟩ := m
          simp only at h5; subst h5
          rw [same_id hi hm hp]
        · have hd := (place_dead (printF (grid m.2).1 ++ ':' :: printF (grid m.2).2)).2.2.2
          rw [← List.append_assoc, ← h1] at hd
          exact absurd (List.prefix_append _ _) hd
    · rw [List.mem_singleton.mp hm] at hid
      exfalso
      unfold writePrefs at hid
      have hno : ∀ l : List Char, ¬ Starts "id=" l → "id=".toList ++ printD (UInt32.ofNat id) ≠ l := fun l hl he => hl (he ▸ List.prefix_append _ _)
      rcases List.mem_append.mp hid with h1 | h1
      · simp only [List.mem_cons, List.not_mem_nil, or_false] at h1
        rcases h1 with h1 | h1 | h1 | h1
        · exact hno _ (starts_key rfl) h1
        · exact hno _ (starts_key rfl) h1
        · exact hno _ (starts_key rfl) h1
        · exact hno _ (starts_key rfl) h1
      · split at h1
        · exact hno _ (starts_key rfl) (List.mem_singleton.mp h1)
        · cases h1
  rw [hsec] at hw
  have hq2 := l5 (p, id) ((q2 _).mpr hp) hw
  have hc2 : Chain st qs2 := Chain.drop (l3 ▸ q1)
  have hb := back_ok hi hfit hc2
  obtain ⟨p', n1, n2, b1, b2, b3, b4⟩ := hb.same p id hq2
  rw [hnd] at b2; cases b2
  refine ⟨p', n2, l4.nodes _ b1, ?_, ?_, (reloadF (grid id).1, reloadF (grid id).2), ?_, savedValue_reload _, savedValue_reload _⟩
  · obtain ⟨t, ht⟩ := l4.arena
    rw [← ht, List.getElem?_append_left (List.getElem?_eq_some_iff.mp b3).1]; exact b3
  · refine (b4.mono (fun _ h => h) l4.nodes).imp ?_
    rintro x hx v' rfl
    exact savedValue_reload _
  · rw [l4.places p' id b1]; exact lookup_gridOf hq2

/-! ### Examples and counterexamples -/

/-- A position for every node, and settings. -/
def exGrid : Grid := fun id => (UInt32.ofNat (0x42c80000 + id * 0x10000), 0x3f000000)
def exPrefs : Prefs := { offset := (0xc1200000, 0x3dcccccd), scale := 0x3ca3d70a, seed := 1337, genType := 2, selected := some 2 }
def exPrefs0 : Prefs := { offset := (0, 0), scale := 0, seed := 0, genType := 0, selected := none }

/-- The file of the example graph: four node sections, sources first, then the settings. -/
def exFile : List Section :=
  [⟨nodeType, "Node:0".toList, ["variable=1065353216".toList, "id=3".toList, "grid_pos=101.500000:0.500000".toList]⟩,
   ⟨nodeType, "Node:0".toList, ["variable=1065353216".toList, "id=2".toList, "grid_pos=101.000000:0.500000".toList]⟩,
   ⟨nodeType, "Node:21".toList, ["node=3".toList, "hybrid=2:0.000000".toList, "id=4".toList, "grid_pos=102.000000:0.500000".toList]⟩,
   ⟨nodeType, "Node:21".toList, ["node=4".toList, "hybrid=2:0.000000".toList, "id=5".toList, "grid_pos=102.500000:0.500000".toList]⟩,
   ⟨graphType, "Settings".toList, ["grid_offset=-10.000000:0.100000".toList, "scale=0.020000".toList, "seed=1337".toList, "gen_type=2".toList, "selected_node=4".toList]⟩]

theorem ex_save : save id 20 exSt exGrid exPrefs = .ok exFile := by decide +kernel

/-- Non-vacuity of C50_restores, C50_exact and C50_stable: the session of four nodes, two of them adders. -/
example : (∃ file ld, save id 20 exSt exGrid exPrefs = .ok file ∧ load Registry.reg id 20 true exPrefs0 file = .ok ld ∧ Restored SavedValue exSt exGrid exPrefs exPrefs0 true ld ∧ FileOk file ∧ Session Registry.reg ld.ed) ∧
    (load Registry.reg id 20 true exPrefs0 exFile).bind (fun ld => .ok (ld.ed.nodes, ld.prefs)) = .ok ([(3, 5), (2, 4), (1, 2), (0, 3)], { exPrefs with selected := some 2 }) :=
  ⟨C50_restores exSt ex_session exGrid exPrefs exPrefs0 true id id (fun _ => List.Perm.refl _) (fun _ => List.Perm.refl _) 20 (by decide), by decide +kernel⟩

/-- Non-vacuity of C50_crash: the file cut in the middle of the id of the third node; the first two are back. -/
def exCut : List Section :=
  [⟨nodeType, "Node:0".toList, ["variable=1065353216".toList, "id=3".toList, "grid_pos=101.500000:0.500000".toList]⟩,
   ⟨nodeType, "Node:0".toList, ["variable=1065353216".toList, "id=2".toList, "grid_pos=101.000000:0.500000".toList]⟩,
   ⟨nodeType, "Node:21".toList, ["node=3".toList, "hybrid=2:0.000000".toList, "id".toList]⟩]

example : Cut exFile exCut ∧ Whole exFile exCut ⟨nodeType, "Node:0".toList, ["variable=1065353216".toList, "id=2".toList, "grid_pos=101.000000:0.500000".toList]⟩ ∧
    (load Registry.reg id 20 true exPrefs0 exCut).bind (fun ld => .ok ld.ed.nodes) = .ok [(1, 2), (0, 3)] := by
  refine ⟨Or.inr ⟨exFile.take 2, exFile[2], exFile.drop 3, ["node=3".toList, "hybrid=2:0.000000".toList], "id=4".toList, ["grid_pos=102.000000:0.500000".toList], "id".toList, rfl, rfl, ?_, Or.inr rfl⟩, ?_, ?_⟩
  · exact ⟨"=4".toList, by decide⟩
  · exact ⟨exFile.take 1, ⟨exFile.drop 2, rfl⟩, ⟨exCut.drop 2, rfl⟩⟩
  · decide +kernel

/-- Non-vacuity of C50_exact: 0.02, 0.1, -10 and 101.5 were typed in, or are large. -/
example : Kept 0x3ca3d70a ∧ Kept 0x3dcccccd ∧ Kept 0xc1200000 ∧ Kept 0x42cb0000 :=
  ⟨Or.inl ⟨"0.020000".toList, ⟨[], 0, 20000, Or.inl rfl, by norm_num, by decide +kernel⟩, by decide +kernel⟩,
   Or.inl ⟨"0.100000".toList, ⟨[], 0, 100000, Or.inl rfl, by norm_num, by decide +kernel⟩, by decide +kernel⟩,
   Or.inl ⟨"-10.000000".toList, ⟨['-'], 10, 0, Or.inr rfl, by norm_num, by decide +kernel⟩, by decide +kernel⟩,
   Or.inl ⟨"101.500000".toList, ⟨[], 101, 500000, Or.inl rfl, by norm_num, by decide +kernel⟩, by decide +kernel⟩⟩

/-- Small constants do not survive: an adder whose second input is set to 1e-7 has 0 there after reopening the editor. -/
theorem C50_small_value_lost : ∃ st, run Registry.reg id 20 [.add 21, .setHybrid 2 0 0x33d6bf95] init = .ok st ∧ st.arena = [⟨some 21, [], [none], [(none, 0x33d6bf95)]⟩] ∧
    (((save id 20 st exGrid exPrefs).bind (load Registry.reg id 20 true exPrefs0)).bind fun ld => .ok ld.ed.arena) = .ok [⟨some 21, [], [none], [(none, 0)]⟩] :=
  ⟨{ init with arena := [⟨some 21, [], [none], [(none, 0x33d6bf95)]⟩], nodes := [(0, 2)], counter := 2 }, by decide +kernel, rfl, by decide +kernel⟩

/-- A node section that goes on after its id: with a wrong number of members the `NodeData` was deleted, and the next line writes to it (FastNoiseNodeEditor.cpp:452-466). -/
theorem C50_file_uaf : load Registry.reg id 20 true exPrefs0 [⟨nodeType, "Node:0".toList, ["id=3".toList, "variable=0".toList]⟩] = .ub := by decide +kernel

instance (k : String) (l : List Char) : Decidable (Starts k l) := inferInstanceAs (Decidable (_ <+: _))

/-- A check for `FileOk`. -/
theorem fileOk_of {file : List Section} (h : ∀ s ∈ file, s.type = nodeType →
    s.lines.Pairwise (fun x y => Starts "id=" x → ¬ Starts "variable=" y ∧ ¬ Starts "node=" y ∧ ¬ Starts "hybrid=" y ∧ ¬ Starts "id=" y) ∧
    ∀ l ∈ s.lines, ((scan1D "id=".toList l).all fun v => decide (1 ≤ v.toNat ∧ v.toNat * 256 + 255 < 2 ^ 31)) = true) : FileOk file := by
  intro s hs ht
  obtain ⟨h1, h2⟩ := h s hs ht
  constructor
  · intro pre line post e hst l hl
    rw [e, List.pairwise_append] at h1
    exact (List.pairwise_cons.mp h1.2.1).1 l hl hst
  · intro line hl v hv
    have := h2 line hl
    rw [hv] at this
    simpa using this

/-- A file no editor wrote: an unknown type, a link to nowhere, an id used twice, garbage and a section of another program. -/
def exOdd : List Section :=
  [⟨nodeType, "Node:99".toList, ["id=3".toList]⟩,
   ⟨nodeType, "Node:21".toList, ["node=77".toList, "nonsense".toList, "hybrid=1:inf".toList, "id=9".toList, "grid_pos=x".toList]⟩,
   ⟨nodeType, "Node:0".toList, ["variable=5".toList, "id=9".toList, "grid_pos=1.000000:2.000000".toList]⟩,
   ⟨"Window".toList, "Debug".toList, ["Pos=60,60".toList]⟩]

/-- Non-vacuity of C50_any_file_partial. -/
example : FileOk exOdd ∧ (load Registry.reg id 20 true exPrefs0 exOdd).bind (fun ld => .ok (ld.ed.nodes, ld.ed.arena)) = .ok ([(0, 9)], [⟨some 21, [], [none], [(none, 0x7f800000)]⟩]) :=
  ⟨fileOk_of (by decide +kernel), by decide +kernel⟩

end FastNoise.Editor
