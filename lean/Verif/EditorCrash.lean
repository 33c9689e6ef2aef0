import Verif.EditorCut
import Verif.EditorFileSpec
/-! # What a crash while saving leaves -/
namespace FastNoise.Editor
open FastNoise.Ser FastNoise.Deser FastNoise.Stream FastNoise.Spec FastNoise.RT
open Relation

variable {reg : Reg} {ρ : List (Nat × Nat) → List (Nat × Nat)} {fuel : Nat} {det : Bool}

/-- A line without an id changes no node. -/
theorem quiet_line {line : List Char} {ld ld' : Ld} {e e' : Entry} (h : readLine reg ρ fuel det line (ld, e) = .ok (ld', e')) (hid : scan1D "id=".toList line = none) :
    ld'.ed = ld.ed ∧ (ld'.grid = ld.grid ∨ ∃ p i w, e = .owned p i ∧ ld'.grid = (i, w) :: ld.grid) ∧ ∀ p i, e' = .owned p i → e = .owned p i := by
  cases e with
  | none => cases h; exact ⟨rfl, Or.inl rfl, fun _ _ h => h⟩
  | graph => cases h; exact ⟨rfl, Or.inl rfl, fun _ _ h => h⟩
  | owned p i =>
    rw [readLine] at h; simp only at h
    rw [readNodeLine, hid] at h
    split at h
    · cases h; exact ⟨rfl, Or.inr ⟨_, _, _, rfl, rfl⟩, fun _ _ h => h⟩
    · split at h
      · cases h
      · split at h
        · cases h
        · split at h
          · cases h
          · cases h; exact ⟨rfl, Or.inl rfl, fun _ _ h => h⟩
  | freed =>
    rw [readLine] at h; simp only at h
    rw [readNodeLine, hid] at h
    split at h
    · cases h; exact ⟨rfl, Or.inl rfl, fun _ _ h => h⟩
    · split at h
      · cases h
      · split at h
        · cases h
        · split at h
          · cases h
          · cases h; exact ⟨rfl, Or.inl rfl, fun _ _ h => h⟩
  | pending nd =>
    rw [readLine] at h; simp only at h
    rw [readNodeLine, hid] at h
    split at h
    · cases h; exact ⟨rfl, Or.inl rfl, fun _ _ h => by cases h⟩
    · split at h
      · cases h; exact ⟨rfl, Or.inl rfl, fun _ _ h => by cases h⟩
      · split at h
        · cases h; exact ⟨rfl, Or.inl rfl, fun _ _ h => by cases h⟩
        · split at h
          · cases h; exact ⟨rfl, Or.inl rfl, fun _ _ h => by cases h⟩
          · cases h; exact ⟨rfl, Or.inl rfl, fun _ _ h => by cases h⟩

theorem quiet_lines : ∀ (lines : List (List Char)) {ld : Ld} {e : Entry} {r : Ld × Entry}, eachDo (readLine reg ρ fuel det) lines (ld, e) = .ok r →
    (∀ l ∈ lines, scan1D "id=".toList l = none) → (∀ p i, e ≠ .owned p i) → r.1.ed = ld.ed ∧ r.1.grid = ld.grid := by
  intro lines
  induction lines with
  | nil => intro ld e r h _ _; cases h; exact ⟨rfl, rfl⟩
  | cons l ls ih =>
    intro ld e r h hid hown
    rw [eachDo] at h
    cases hv : readLine reg ρ fuel det l (ld, e) with
    | ub => rw [hv] at h; cases h
    | deep => rw [hv] at h; cases h
    | ok s =>
      obtain ⟨ld1, e1⟩ := s
      rw [hv] at h
      simp only [Out.bind] at h
      obtain ⟨a1, a2, a3⟩ := quiet_line hv (hid l List.mem_cons_self)
      have hg : ld1.grid = ld.grid := by
        rcases a2 with a | ⟨p, i, w, he, _⟩
        · exact a
        · exact absurd he (hown p i)
      obtain ⟨b1, b2⟩ := ih h (fun x hx => hid x (List.mem_cons_of_mem _ hx)) (fun p i he => hown p i (a3 p i he))
      exact ⟨b1.trans a1, b2.trans hg⟩

theorem graph_lines : ∀ (lines : List (List Char)) {ld : Ld} {r : Ld × Entry}, eachDo (readLine reg ρ fuel det) lines (ld, .graph) = .ok r → r.1.ed = ld.ed ∧ r.1.grid = ld.grid := by
  intro lines
  induction lines with
  | nil => intro ld r h; cases h; exact ⟨rfl, rfl⟩
  | cons l ls ih =>
    intro ld r h
    rw [eachDo] at h
    obtain ⟨b1, b2⟩ := ih (ld := readPrefsLine det ld l) h
    exact ⟨b1, b2⟩

/-- All the first nodes brought is there. -/
structure Grown (st : Ed) (grid : Grid) (qs : List (Nat × Nat)) (ed : Ed) (G : List (Nat × (UInt32 × UInt32))) : Prop where
  nodes : ∀ x ∈ (back st qs).nodes, x ∈ ed.nodes
  arena : (back st qs).arena <+: ed.arena
  places : ∀ p i, (p, i) ∈ (back st qs).nodes → G.lookup i = (gridOf grid qs).lookup i
  size : ed.arena.length ≤ qs.length + 1

theorem Grown.refl (st : Ed) (grid : Grid) (qs : List (Nat × Nat)) : Grown st grid qs (back st qs) (gridOf grid qs) := ⟨fun _ h => h, List.prefix_rfl, fun _ _ _ => rfl, by rw [back_length]; omega⟩

theorem Grown.of_eq {st : Ed} {grid : Grid} {qs : List (Nat × Nat)} {ld : Ld} (h1 : ld.ed = back st qs) (h2 : ld.grid = gridOf grid qs) : Grown st grid qs ld.ed ld.grid := by
  rw [h1, h2]; exact Grown.refl st grid qs

theorem starts_not_id {l : List Char} (h : ¬ Starts "id=" l) : scan1D "id=".toList l = none :=
  Option.eq_none_iff_forall_ne_some.mpr fun _ hv => h (scan1D_starts hv)

theorem cut_not_id {l l' : List Char} (hp : l' <+: l) (h : ¬ Starts "id=" l) : scan1D "id=".toList l' = none :=
  starts_not_id fun hs => h (List.IsPrefix.trans hs hp)

theorem readSection_inv {s : Section} {ld ld' : Ld} (h : readSection reg ρ fuel det s ld = .ok ld') :
    ∃ r, eachDo (readLine reg ρ fuel det) s.lines (ld, readOpen reg s) = .ok r ∧ r.1 = ld' := by
  unfold readSection at h
  cases hv : eachDo (readLine reg ρ fuel det) s.lines (ld, readOpen reg s) with
  | ub => rw [hv] at h; cases h
  | deep => rw [hv] at h; cases h
  | ok r => rw [hv] at h; simp only [Out.bind] at h; cases h; exact ⟨r, rfl, rfl⟩

/-- After the id: only the position can still change. -/
theorem owned_lines {lines : List (List Char)} (hlen : lines.length ≤ 1) {ld : Ld} {p i : Nat} {r : Ld × Entry} (h : eachDo (readLine reg ρ fuel det) lines (ld, .owned p i) = .ok r)
    (hid : ∀ l ∈ lines, scan1D "id=".toList l = none) : r.1.ed = ld.ed ∧ (r.1.grid = ld.grid ∨ ∃ w, r.1.grid = (i, w) :: ld.grid) := by
  match lines, hlen with
  | [], _ => cases h; exact ⟨rfl, Or.inl rfl⟩
  | [l], _ =>
    rw [eachDo] at h
    cases hv : readLine reg ρ fuel det l (ld, .owned p i) with
    | ub => rw [hv] at h; cases h
    | deep => rw [hv] at h; cases h
    | ok s =>
      obtain ⟨ld1, e1⟩ := s
      rw [hv] at h
      simp only [Out.bind, eachDo] at h
      cases h
      obtain ⟨a1, a2, _⟩ := quiet_line hv (hid l List.mem_cons_self)
      refine ⟨a1, ?_⟩
      rcases a2 with a | ⟨p', i', w, he, hw⟩
      · exact Or.inl a
      · cases he; exact Or.inr ⟨w, hw⟩

theorem grown_ext {st : Ed} {grid : Grid} {qs : List (Nat × Nat)} (hi : Inv reg (back st qs)) {v : Nat} (hfree : findNode (back st qs).nodes v = none) {nd : NodeData} {ld : Ld}
    (he : ld.ed = { back st qs with arena := (back st qs).arena ++ [nd], nodes := ((back st qs).arena.length, v) :: (back st qs).nodes })
    (hg : ld.grid = gridOf grid qs ∨ ∃ w, ld.grid = (v, w) :: gridOf grid qs) : Grown st grid qs ld.ed ld.grid := by
  rw [he]
  refine ⟨fun x hx => List.mem_cons_of_mem _ hx, List.prefix_append _ _, ?_, by simp [back_length]⟩
  intro p i hpi
  rcases hg with hg | ⟨w, hg⟩
  · rw [hg]
  · rw [hg, List.lookup_cons]
    have : i ≠ v := by
      rintro rfl
      rw [find_of_mem hi hpi] at hfree; cases hfree
    have : (i == v) = false := by simpa using this
    rw [this]

/-- A section that was not written to its end. -/
theorem cut_section (hreg : Registry.RegOK reg) {st : Ed} (h : Inv reg st) (hfit : AllFit reg st) (grid : Grid) (hρ : IsOrder ρ) {n : Nat × Nat} {qs : List (Nat × Nat)}
    (hq : Chain st (n :: qs)) (hf : qs.length + 1 < fuel) {pr : Prefs} {a b : List (List Char)} {l l' : List Char} (hl : (sec st grid n).lines = a ++ l :: b) (hll : l' <+: l)
    {lines : List (List Char)} (hlines : lines = a ∨ lines = a ++ [l']) {ld' : Ld}
    (hr : readSection reg ρ fuel det { sec st grid n with lines := lines } { ed := back st qs, grid := gridOf grid qs, prefs := pr } = .ok ld') : Grown st grid qs ld'.ed ld'.grid := by
  have hb := back_ok h hfit hq
  have hn : n ∈ st.nodes := hq.sub _ List.mem_cons_self
  have hp : n.1 ∈ ptrs st := List.mem_map.mpr ⟨_, hn, rfl⟩
  obtain ⟨nd, _, _, hnd, _⟩ := h.good.live n.1 hp
  obtain ⟨mid, m, a1, a2, _⟩ := shaped_of_live h.good hp hnd
  have hid := h.idr n.2 (List.mem_map.mpr ⟨_, hn, rfl⟩)
  have hid2 : (UInt32.ofNat n.2).toNat = n.2 := by
    rw [UInt32.toNat_ofNat']; have := hid.2; rw [maxId_eq] at this; exact Nat.mod_eq_of_lt (by omega)
  have hc : Chain st qs := by cases hq with | cons hc _ _ _ => exact hc
  have hb0 := back_ok h hfit hc
  obtain ⟨r, hr', rfl⟩ := readSection_inv hr
  clear hr
  have hr := hr'
  clear hr'
  have hopen : readOpen reg { sec st grid n with lines := lines } = .pending { md := some mid, vars := [], lookups := [], hybrids := [] } :=
    sec_open hreg grid hnd a1 (List.getElem?_eq_some_iff.mp a2).1 rfl rfl
  rw [hopen] at hr
  simp only at hr
  have quiet : (∀ x ∈ lines, scan1D "id=".toList x = none) → Grown st grid qs r.1.ed r.1.grid := by
    intro hx
    obtain ⟨q1, q2⟩ := quiet_lines lines hr hx (by intro p i hc; cases hc)
    exact Grown.of_eq q1 q2
  rw [sec_lines st grid hnd] at hl
  have hplace := place_dead (printF (grid n.2).1 ++ ':' :: printF (grid n.2).2)
  rw [← List.append_assoc] at hplace
  rcases split_lines hl with ⟨h1, h2⟩ | ⟨h1, h2, _⟩ | ⟨h1, h2, _⟩
  · refine quiet fun x hx => ?_
    rcases hlines with rfl | rfl
    · exact starts_not_id (member_not_id (h2 x hx))
    · rcases List.mem_append.mp hx with hx | hx
      · exact starts_not_id (member_not_id (h2 x hx))
      · rw [List.mem_singleton.mp hx]; exact cut_not_id hll (member_not_id h1)
  · rcases hlines with rfl | rfl
    · exact quiet fun x hx => starts_not_id (member_not_id (h1 ▸ hx))
    · cases hv : scan1D "id=".toList l' with
      | none =>
        refine quiet fun x hx => ?_
        rcases List.mem_append.mp hx with hx | hx
        · exact starts_not_id (member_not_id (h1 ▸ hx))
        · rw [List.mem_singleton.mp hx]; exact hv
      | some v =>
        subst h1 h2
        have hv1 := cut_id hid hll hv
        obtain ⟨t, ht⟩ := scan1D_starts hv
        have n1 : scan2F "grid_pos=".toList l' = none := by rw [← ht]; exact scan2F_not rfl
        have n2 : scan1D "variable=".toList l' = none := by rw [← ht]; exact scan1D_not rfl
        have n3 : scan1D "node=".toList l' = none := by rw [← ht]; exact scan1D_not rfl
        have n4 : scanDF "hybrid=".toList l' = none := by rw [← ht]; exact scanDF_not rfl
        rw [eachDo_append, read_members h hp hnd a1] at hr
        simp only [Out.bind, eachDo] at hr
        cases hfree : findNode (back st qs).nodes v.toNat with
        | none =>
          rw [read_id hreg h hfit hρ hq hf hnd hv hv1 hfree _ pr n1 n2 n3 n4] at hr
          simp only at hr
          cases hr
          exact grown_ext hb0.inv hfree rfl (Or.inl rfl)
        | some q =>
          obtain ⟨mid', m', c1, c2, c3, c4, c5⟩ := copy_shaped (st := st) (nodes := (back st qs).nodes) (shaped_of_live h.good hp hnd)
          rw [readLine] at hr
          simp only at hr
          rw [readNodeLine, n1, n2, n3, n4, hv] at hr
          simp only [c1, Option.bind_some, c2, hfree, reduceCtorEq, and_false, if_false] at hr
          cases hr
          exact Grown.refl st grid qs
  · subst h1 h2
    have hnofind : findNode (back st qs).nodes n.2 = none := by
      cases hfd : findNode (back st qs).nodes n.2 with
      | none => rfl
      | some q =>
        have h1 : n.2 ∈ ids (back st qs) := List.mem_map.mpr ⟨_, find_mem hfd, rfl⟩
        have h2 := hb.inv.idnd
        rw [ids, back, List.map_cons, List.nodup_cons] at h2
        exact absurd h1 h2.1
    obtain ⟨tl, htl, htlen, htid⟩ : ∃ tl, lines = memberLines st nd ++ ("id=".toList ++ printD (UInt32.ofNat n.2)) :: tl ∧ tl.length ≤ 1 ∧ ∀ x ∈ tl, scan1D "id=".toList x = none := by
      rcases hlines with rfl | rfl
      · exact ⟨[], rfl, by simp, by simp⟩
      · refine ⟨[l'], by simp, by simp, fun x hx => ?_⟩
        rw [List.mem_singleton.mp hx]; exact cut_not_id hll hplace.2.2.2
    rw [htl, eachDo_append, read_members h hp hnd a1] at hr
    simp only [Out.bind] at hr
    rw [eachDo, read_id hreg h hfit hρ hq hf hnd (scan1D_self _ _) (by rw [hid2]; exact hid) (by rw [hid2]; exact hnofind) _ pr (scan2F_not rfl) (scan1D_not rfl) (scan1D_not rfl) (scanDF_not rfl)] at hr
    simp only [Out.bind] at hr
    obtain ⟨o1, o2⟩ := owned_lines htlen hr htid
    rw [hid2] at o1 o2
    exact grown_ext hb0.inv hnofind o1 o2

theorem Chain.drop {st : Ed} : ∀ {qs1 qs2 : List (Nat × Nat)}, Chain st (qs1 ++ qs2) → Chain st qs2 := by
  intro qs1
  induction qs1 with
  | nil => intro qs2 h; exact h
  | cons n qs1 ih => intro qs2 h; cases h with | cons hc _ _ _ => exact ih hc

/-- What is left of a saved file. -/
theorem cut_cases {st : Ed} {grid : Grid} {P : Section} : ∀ {qs : List (Nat × Nat)} {pre post : List Section} {s : Section}, qs.reverse.map (sec st grid) ++ [P] = pre ++ s :: post →
    (post = [] ∧ s = P ∧ pre = qs.reverse.map (sec st grid)) ∨ ∃ qs1 n qs2, qs = qs1 ++ n :: qs2 ∧ s = sec st grid n ∧ pre = qs2.reverse.map (sec st grid) := by
  intro qs pre post s h
  by_cases hp : post = []
  · subst hp
    obtain ⟨h1, h2⟩ := List.append_inj' h rfl
    exact Or.inl ⟨rfl, (List.cons.inj h2).1.symm, h1.symm⟩
  · right
    have hd := congrArg List.dropLast h
    rw [List.dropLast_concat, List.dropLast_append_of_ne_nil (by simp), List.dropLast_cons_of_ne_nil hp] at hd
    obtain ⟨x, y, hxy, hx, hy⟩ := List.map_eq_append_iff.mp hd
    obtain ⟨n, y', hy', hn, _⟩ := List.map_eq_cons_iff.mp hy
    subst hy'
    refine ⟨y'.reverse, n, x.reverse, ?_, hn.symm, by rw [List.reverse_reverse]; exact hx.symm⟩
    have := congrArg List.reverse hxy
    rw [List.reverse_reverse] at this
    rw [this]; simp

theorem load_inv {pr : Prefs} {file : List Section} {ld : Ld} (h : load reg ρ fuel det pr file = .ok ld) :
    ∃ l1, eachDo (readSection reg ρ fuel det) file { ed := init, grid := [], prefs := pr } = .ok l1 ∧ applyAll reg ρ fuel l1.ed = .ok ld.ed ∧ ld.grid = l1.grid := by
  unfold load at h
  cases hv : eachDo (readSection reg ρ fuel det) file { ed := init, grid := [], prefs := pr } with
  | ub => rw [hv] at h; cases h
  | deep => rw [hv] at h; cases h
  | ok l1 =>
    rw [hv] at h
    simp only [Out.bind] at h
    cases hx : applyAll reg ρ fuel l1.ed with
    | ub => rw [hx] at h; cases h
    | deep => rw [hx] at h; cases h
    | ok ed => rw [hx] at h; cases h; exact ⟨l1, rfl, hx, rfl⟩

theorem prefix_cases {α : Type} {a b : List α} (h : a <+: b) : a = b ∨ ∃ s post, b = a ++ s :: post := by
  obtain ⟨t, ht⟩ := h
  cases t with
  | nil => left; simpa using ht
  | cons s post => exact Or.inr ⟨s, post, ht.symm⟩

/-- A section tells whose it is. -/
theorem sec_inj {st : Ed} (h : Inv reg st) {grid : Grid} {n m : Nat × Nat} (hn : n ∈ st.nodes) (hm : m ∈ st.nodes) (he : sec st grid n = sec st grid m) : n = m := by
  obtain ⟨nd, _, _, hnd, _⟩ := h.good.live n.1 (List.mem_map.mpr ⟨_, hn, rfl⟩)
  obtain ⟨md, _, _, hmd, _⟩ := h.good.live m.1 (List.mem_map.mpr ⟨_, hm, rfl⟩)
  have hl := congrArg Section.lines he
  rw [sec_lines st grid hnd, sec_lines st grid hmd] at hl
  obtain ⟨_, h2⟩ := List.append_inj' hl rfl
  have h3 := (List.cons.inj h2).1
  have h4 := congrArg (scan1D "id=".toList) h3
  rw [scan1D_self, scan1D_self] at h4
  have h5 := congrArg UInt32.toNat (Option.some.inj h4)
  have hx : ∀ x ∈ st.nodes, (UInt32.ofNat x.2).toNat = x.2 := by
    intro x hx
    have := (h.idr x.2 (List.mem_map.mpr ⟨_, hx, rfl⟩)).2
    rw [UInt32.toNat_ofNat']; rw [maxId_eq] at this; exact Nat.mod_eq_of_lt (by omega)
  rw [hx n hn, hx m hm] at h5
  obtain ⟨p, i⟩ := n
  obtain ⟨q, j⟩ := m
  simp only at h5; subst h5
  rw [same_id h hn hm]

theorem mem_secs {st : Ed} (h : Inv reg st) {grid : Grid} {qs : List (Nat × Nat)} (hq : Chain st qs) {n : Nat × Nat} (hn : n ∈ st.nodes) (hs : sec st grid n ∈ qs.reverse.map (sec st grid)) : n ∈ qs := by
  obtain ⟨m, hm, e⟩ := List.mem_map.mp hs
  have hm := List.mem_reverse.mp hm
  rw [← sec_inj h (hq.sub m hm) hn e]; exact hm

/-- Every node whose section was written to its end survives. -/
theorem crash_load (hreg : Registry.RegOK reg) (hw : WarpFirst reg) {st : Ed} (h : Inv reg st) (hfit : AllFit reg st) (grid : Grid) (pr pr0 : Prefs) (hρ : IsOrder ρ) {qs : List (Nat × Nat)} (hq : Chain st qs)
    (hf : qs.length + 2 < fuel) {file' : List Section} (hc : Cut (qs.reverse.map (sec st grid) ++ [writePrefs st.nodes pr]) file') :
    ∃ ld, load reg ρ fuel det pr0 file' = .ok ld ∧ EdOk reg ld.ed ∧ ∃ qs1 qs2, qs = qs1 ++ qs2 ∧ Grown st grid qs2 ld.ed ld.grid ∧
      ∀ n ∈ qs, Whole (qs.reverse.map (sec st grid) ++ [writePrefs st.nodes pr]) file' (sec st grid n) → n ∈ qs2 := by
  have hok := cut_ok h hq hc
  have hlen : file'.length ≤ qs.length + 1 := by
    have : (qs.reverse.map (sec st grid) ++ [writePrefs st.nodes pr]).length = qs.length + 1 := by simp
    rw [← this]
    rcases hc with hp | ⟨pre, s, post, a, l, b, l', e, _, _, hfile⟩
    · exact hp.length_le
    · rw [e]
      rcases hfile with rfl | rfl
      · simp
      · simp
  obtain ⟨o1, o2, o3⟩ := load_ok (fuel := fuel) (det := det) hw hρ hok pr0
  cases hld : load reg ρ fuel det pr0 file' with
  | ub => exact absurd hld o1
  | deep => exact absurd hld (o2 (by omega))
  | ok ld =>
    obtain ⟨e1, e2⟩ := o3 ld hld
    obtain ⟨l1, r1, r2, r3⟩ := load_inv hld
    have hl1 := ((readFile_ok (fuel := fuel) (det := det) hw hρ file' { ed := init, grid := [], prefs := pr0 } ⟨inv_init reg, fun q hq => by simp [ptrs, init] at hq⟩ hok).2.2 l1 r1)
    simp only [init, List.length_nil, Nat.zero_add] at hl1
    have hqn : qs.length ≤ maxId := by
      have := ids_few h
      have h2 : qs.length ≤ st.nodes.length := (List.subperm_of_subset hq.nodup (fun n hn => hq.sub n hn)).length_le
      omega
    rw [maxId_eq] at hqn
    suffices hs : ∃ qs1 qs2, qs = qs1 ++ qs2 ∧ Grown st grid qs2 l1.ed l1.grid ∧
        ∀ n ∈ qs, Whole (qs.reverse.map (sec st grid) ++ [writePrefs st.nodes pr]) file' (sec st grid n) → n ∈ qs2 by
      obtain ⟨qs1, qs2, s1, s2, s3⟩ := hs
      have hq2 : qs2.length ≤ qs.length := by rw [s1]; simp
      have hsame := applyAll_same (ρ := ρ) (fuel := fuel) hreg hl1.1.1 hl1.1.2 (by have := s2.size; omega) hρ (by omega)
      rw [r2] at hsame
      have hed : ld.ed = l1.ed := by injection hsame
      refine ⟨ld, rfl, e1, qs1, qs2, s1, ?_, s3⟩
      rw [hed, r3]; exact s2
    -- the sections before the last are read back
    have hread : ∀ (qs1 qs2 : List (Nat × Nat)), qs = qs1 ++ qs2 → ∀ rest, file' = qs2.reverse.map (sec st grid) ++ rest →
        eachDo (readSection reg ρ fuel det) rest { ed := back st qs2, grid := gridOf grid qs2, prefs := pr0 } = .ok l1 := by
      intro qs1 qs2 e rest e'
      have hq2 : qs2.length ≤ qs.length := by rw [e]; simp
      rw [e', eachDo_append, read_sections hreg h hfit grid hρ pr0 qs2 (Chain.drop (e ▸ hq)) (by omega)] at r1
      exact r1
    have hlast : ∀ (s' : Section), s'.type = graphType → s'.name = "Settings".toList → file' = qs.reverse.map (sec st grid) ++ [s'] → Grown st grid qs l1.ed l1.grid := by
      intro s' t1 t2 e
      have h1 := hread [] qs rfl [s'] e
      rw [eachDo] at h1
      cases hv : readSection reg ρ fuel det s' { ed := back st qs, grid := gridOf grid qs, prefs := pr0 } with
      | ub => rw [hv] at h1; cases h1
      | deep => rw [hv] at h1; cases h1
      | ok l2 =>
        rw [hv] at h1
        simp only [Out.bind, eachDo] at h1
        cases h1
        obtain ⟨r, q1, q2⟩ := readSection_inv hv
        rw [readOpen_graph t1 t2] at q1
        obtain ⟨g1, g2⟩ := graph_lines _ q1
        rw [← q2]
        exact Grown.of_eq g1 g2
    by_cases hpre : file' <+: qs.reverse.map (sec st grid) ++ [writePrefs st.nodes pr]
    · rcases prefix_cases hpre with e | ⟨s, post, e⟩
      · exact ⟨[], qs, rfl, hlast _ rfl rfl e, fun n hn _ => hn⟩
      · rcases cut_cases e with ⟨_, _, e'⟩ | ⟨qs1, n0, qs2, d1, _, d3⟩
        · have := hread [] qs rfl [] (by rw [List.append_nil]; exact e')
          cases this
          exact ⟨[], qs, rfl, Grown.refl st grid qs, fun n hn _ => hn⟩
        · have d1' : qs = (qs1 ++ [n0]) ++ qs2 := by rw [d1]; simp
          have := hread _ qs2 d1' [] (by rw [List.append_nil]; exact d3)
          cases this
          refine ⟨_, qs2, d1', Grown.refl st grid qs2, fun n hn hwh => ?_⟩
          obtain ⟨pre', _, w2⟩ := hwh
          refine mem_secs (grid := grid) h (Chain.drop (d1' ▸ hq)) (hq.sub n hn) ?_
          rw [← d3]; exact w2.subset (by simp)
    · rcases hc with hp | ⟨pre, s, post, a, l, b, l', e, hl, hll, hfile⟩
      · exact absurd hp hpre
      · obtain ⟨lines, hlines, hfile⟩ : ∃ lines, (lines = a ∨ lines = a ++ [l']) ∧ file' = pre ++ [{ s with lines := lines }] := by
          rcases hfile with hfile | hfile
          · exact ⟨a, Or.inl rfl, hfile⟩
          · exact ⟨a ++ [l'], Or.inr rfl, hfile⟩
        rcases cut_cases e with ⟨_, e1', e2'⟩ | ⟨qs1, n0, qs2, d1, d2, d3⟩
        · exact ⟨[], qs, rfl, hlast { s with lines := lines } (by rw [e1']; rfl) (by rw [e1']; rfl) (by rw [hfile, e2']), fun n hn _ => hn⟩
        · have d1' : qs = (qs1 ++ [n0]) ++ qs2 := by rw [d1]; simp
          have hq2 : qs2.length < qs.length := by rw [d1]; simp; omega
          have h1 := hread _ qs2 d1' _ (by rw [← d3]; exact hfile)
          subst d2
          rw [eachDo] at h1
          refine ⟨_, qs2, d1', ?_, fun n hn hwh => ?_⟩
          · cases hv : readSection reg ρ fuel det { sec st grid n0 with lines := lines } { ed := back st qs2, grid := gridOf grid qs2, prefs := pr0 } with
            | ub => rw [hv] at h1; cases h1
            | deep => rw [hv] at h1; cases h1
            | ok l2 =>
              rw [hv] at h1
              simp only [Out.bind, eachDo] at h1
              cases h1
              exact cut_section hreg h hfit grid hρ (Chain.drop (d1 ▸ hq)) (by omega) hl hll hlines hv
          · obtain ⟨pre', w1, w2⟩ := hwh
            rw [hfile] at w2
            rcases List.prefix_concat_iff.mp w2 with w | w
            · exfalso
              apply hpre
              rw [hfile, ← w]; exact w1
            · refine mem_secs (grid := grid) h (Chain.drop (d1' ▸ hq)) (hq.sub n hn) ?_
              rw [← d3]; exact w.subset (by simp)

end FastNoise.Editor
