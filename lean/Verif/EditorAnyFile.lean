import Verif.EditorLoad
/-! # Reading any settings file whose sections end with the node's id -/
namespace FastNoise.Editor
open FastNoise.Ser FastNoise.Deser FastNoise.Stream FastNoise.Spec FastNoise.RT
open Relation

theorem lit_some {key line rest : List Char} (h : lit key line = some rest) : key <+: line := by
  induction key generalizing line with
  | nil => exact List.nil_prefix
  | cons a as ih =>
    cases line with
    | nil => simp [lit] at h
    | cons c cs =>
      rw [lit] at h
      split_ifs at h with e
      subst e
      exact List.cons_prefix_cons.mpr ⟨rfl, ih h⟩

theorem scan1D_starts {key line : List Char} {v : UInt32} (h : scan1D key line = some v) : key <+: line := by
  unfold scan1D at h
  cases hl : lit key line with
  | none => rw [hl] at h; simp at h
  | some r => exact lit_some hl

theorem scanDF_starts {key line : List Char} {v : UInt32 × UInt32} (h : scanDF key line = some v) : key <+: line := by
  cases hl : lit key line with
  | none => rw [scanDF_not hl] at h; cases h
  | some r => exact lit_some hl

/-- A `NodeData` being read. -/
structure PendOk (reg : Reg) (ed : Ed) (nd : NodeData) : Prop where
  type : ∃ id m, nd.md = some id ∧ reg[id]? = some m
  links : ∀ c, NLink nd c → c ∈ ptrs ed

theorem nlink_lookup {nd : NodeData} {l : Option Nat} {c : Nat} (h : NLink { nd with lookups := nd.lookups ++ [l] } c) : NLink nd c ∨ l = some c := by
  rcases h with h | ⟨v, h⟩
  · rcases List.mem_append.mp h with h | h
    · exact Or.inl (Or.inl h)
    · exact Or.inr (List.mem_singleton.mp h).symm
  · exact Or.inl (Or.inr ⟨v, h⟩)

theorem nlink_hybrid {nd : NodeData} {l : Option Nat} {x : UInt32} {c : Nat} (h : NLink { nd with hybrids := nd.hybrids ++ [(l, x)] } c) : NLink nd c ∨ l = some c := by
  rcases h with h | ⟨v, h⟩
  · exact Or.inl (Or.inl h)
  · rcases List.mem_append.mp h with h | h
    · exact Or.inl (Or.inr ⟨v, h⟩)
    · have := congrArg Prod.fst (List.mem_singleton.mp h)
      exact Or.inr this.symm

theorem Inv.less {reg : Reg} {st : Ed} (h : Inv reg st) {A : Arena} (hl : Less st.arena A) : Inv reg { st with arena := A } :=
  ⟨h.good.less hl, h.loops.less hl, fun _ hp => hp, h.pnd, h.idnd, h.idr, h.ctr⟩

/-- What holds of the editor while a file is read. -/
def EdOk (reg : Reg) (ed : Ed) : Prop := Inv reg ed ∧ AllFit reg ed

variable {reg : Reg} {ρ : List (Nat × Nat) → List (Nat × Nat)} {fuel : Nat} {det : Bool}

theorem emplace_ok (hw : WarpFirst reg) (hρ : IsOrder ρ) {ed : Ed} (h : EdOk reg ed) {nd : NodeData} (hs : Shaped reg nd) (hl : ∀ c, NLink nd c → c ∈ ptrs ed) {id : Nat}
    (hid : 1 ≤ id ∧ id ≤ maxId) (hn : findNode ed.nodes id = none) :
    emplaceNode reg ρ fuel ed nd id ≠ .ub ∧ (ed.nodes.length + 1 < fuel → emplaceNode reg ρ fuel ed nd id ≠ .deep) ∧
    ∀ ed', emplaceNode reg ρ fuel ed nd id = .ok ed' → EdOk reg ed' ∧ ed'.nodes.length = ed.nodes.length + 1 ∧ ∃ p, ed'.nodes = (p, id) :: ed.nodes := by
  obtain ⟨hi, hfit⟩ := h
  have hnid : id ∉ ids ed := by
    intro hc
    obtain ⟨⟨p, i⟩, h1, e⟩ := List.mem_map.mp hc
    simp only at e; subst e
    rw [find_of_mem hi h1] at hn; cases hn
  have hinv := inv_snoc hi hs hl hid hnid
  have hp : ed.arena.length ∈ ptrs { ed with arena := ed.arena ++ [nd], nodes := (ed.arena.length, id) :: ed.nodes } := List.mem_cons_self
  have ho : ∀ q ∈ (ρ ed.nodes).map (·.1), q ∈ ptrs { ed with arena := ed.arena ++ [nd], nodes := (ed.arena.length, id) :: ed.nodes } :=
    fun q hq => List.mem_cons_of_mem _ ((mem_order hρ).mp hq)
  have hsafe := preview_safe (order := (ρ ed.nodes).map (·.1)) fuel ed.arena.length (ed.arena ++ [nd]) (hinv.good.safe hp) (fun q hq => hinv.good.lt (ho q hq))
  have heq : emplaceNode reg ρ fuel ed nd id = (preview reg ((ρ ed.nodes).map (·.1)) fuel ed.arena.length (ed.arena ++ [nd])).bind fun A =>
      .ok { ed with arena := A, nodes := (ed.arena.length, id) :: ed.nodes } := by
    unfold emplaceNode
    simp only
    rw [if_neg (by omega)]
    simp only [List.length_append, List.length_singleton, Nat.add_sub_cancel]
  rw [heq]
  refine ⟨?_, ?_, ?_⟩
  · cases hv : preview reg ((ρ ed.nodes).map (·.1)) fuel ed.arena.length (ed.arena ++ [nd]) with
    | ub => exact absurd hv hsafe
    | deep => intro h; cases h
    | ok A => intro h; cases h
  · intro hf
    have hst := preview_stops ho hinv.loops fuel ed.arena.length (ed.arena ++ [nd]) [] (by simpa using hf) List.nodup_nil (by simp) hp (by simp) (by simp) (Less.refl _) (hinv.good.safe hp)
    cases hv : preview reg ((ρ ed.nodes).map (·.1)) fuel ed.arena.length (ed.arena ++ [nd]) with
    | ub => intro h; cases h
    | deep => exact absurd hv hst
    | ok A => intro h; cases h
  · intro ed' e
    cases hv : preview reg ((ρ ed.nodes).map (·.1)) fuel ed.arena.length (ed.arena ++ [nd]) with
    | ub => rw [hv] at e; cases e
    | deep => rw [hv] at e; cases e
    | ok A =>
      rw [hv] at e
      simp only [Out.bind] at e
      cases e
      have hl := preview_less _ _ _ _ hv
      refine ⟨⟨Inv.less hinv hl, ?_⟩, rfl, _, rfl⟩
      intro q hq
      rcases List.mem_cons.mp hq with rfl | hq
      · exact preview_fits hw _ _ _ _ (fun n hn => by simp at hn; subst hn; exact hs) hv
      · exact (fits_append hi hfit [nd] q hq).less hl

/-- What holds of the entry of the section being read, given the lines to come. -/
def EntryOk (reg : Reg) (ed : Ed) (post : List (List Char)) : Entry → Prop
  | .pending nd => PendOk reg ed nd ∧ (∀ pre line rest, post = pre ++ line :: rest → Starts "id=" line → ∀ l ∈ rest, ¬ Starts "variable=" l ∧ ¬ Starts "node=" l ∧ ¬ Starts "hybrid=" l ∧ ¬ Starts "id=" l) ∧
      ∀ line ∈ post, ∀ v, scan1D "id=".toList line = some v → 1 ≤ v.toNat ∧ v.toNat * 256 + 255 < 2 ^ 31
  | .owned _ _ => ∀ l ∈ post, ¬ Starts "variable=" l ∧ ¬ Starts "node=" l ∧ ¬ Starts "hybrid=" l ∧ ¬ Starts "id=" l
  | .freed => ∀ l ∈ post, ¬ Starts "variable=" l ∧ ¬ Starts "node=" l ∧ ¬ Starts "hybrid=" l ∧ ¬ Starts "id=" l
  | _ => True

theorem EntryOk.tail {ed : Ed} {line : List Char} {post : List (List Char)} {e : Entry} (h : EntryOk reg ed (line :: post) e) : EntryOk reg ed post e := by
  cases e with
  | none => trivial
  | graph => trivial
  | pending nd => exact ⟨h.1, fun pre l rest hp => h.2.1 (line :: pre) l rest (by rw [hp]; rfl), fun l hl => h.2.2 l (List.mem_cons_of_mem _ hl)⟩
  | owned p id => exact fun l hl => h l (List.mem_cons_of_mem _ hl)
  | freed => exact fun l hl => h l (List.mem_cons_of_mem _ hl)

/-- The entry stands for a node that may still be added. -/
def room : Entry → Nat
  | .pending _ => 1
  | _ => 0

theorem readPrefsLine_ed (ld : Ld) (line : List Char) : (readPrefsLine det ld line).ed = ld.ed := rfl

/-- A line of a section whose entry is gone. -/
theorem dead_line {ed : Ed} {line : List Char} {post : List (List Char)} {e : Entry} (h : EntryOk reg ed (line :: post) e) (hd : e = .freed ∨ ∃ p id, e = .owned p id) :
    scan1D "variable=".toList line = none ∧ scan1D "node=".toList line = none ∧ scanDF "hybrid=".toList line = none ∧ scan1D "id=".toList line = none := by
  have h' : ¬ Starts "variable=" line ∧ ¬ Starts "node=" line ∧ ¬ Starts "hybrid=" line ∧ ¬ Starts "id=" line := by
    rcases hd with rfl | ⟨p, id, rfl⟩
    · exact h line List.mem_cons_self
    · exact h line List.mem_cons_self
  obtain ⟨h1, h2, h3, h4⟩ := h'
  refine ⟨?_, ?_, ?_, ?_⟩
  · exact Option.eq_none_iff_forall_ne_some.mpr fun v hv => h1 (scan1D_starts hv)
  · exact Option.eq_none_iff_forall_ne_some.mpr fun v hv => h2 (scan1D_starts hv)
  · exact Option.eq_none_iff_forall_ne_some.mpr fun v hv => h3 (scanDF_starts hv)
  · exact Option.eq_none_iff_forall_ne_some.mpr fun v hv => h4 (scan1D_starts hv)

/-- What one line does. -/
def LineOk (reg : Reg) (fuel : Nat) (post : List (List Char)) (s : Ld × Entry) (r : Out (Ld × Entry)) : Prop :=
  r ≠ .ub ∧ (s.1.ed.nodes.length + 1 < fuel → r ≠ .deep) ∧ ∀ s', r = .ok s' → EdOk reg s'.1.ed ∧ EntryOk reg s'.1.ed post s'.2 ∧
    s'.1.ed.nodes.length + room s'.2 ≤ s.1.ed.nodes.length + room s.2

theorem LineOk.of_ok {post : List (List Char)} {s s' : Ld × Entry} (h1 : EdOk reg s'.1.ed) (h2 : EntryOk reg s'.1.ed post s'.2)
    (h3 : s'.1.ed.nodes.length + room s'.2 ≤ s.1.ed.nodes.length + room s.2) : LineOk reg fuel post s (.ok s') :=
  ⟨(by intro h; cases h), fun _ => (by intro h; cases h), fun s'' e => by cases e; exact ⟨h1, h2, h3⟩⟩

theorem readLine_ok (hw : WarpFirst reg) (hρ : IsOrder ρ) {line : List Char} {post : List (List Char)} {s : Ld × Entry} (h : EdOk reg s.1.ed) (he : EntryOk reg s.1.ed (line :: post) s.2) :
    LineOk reg fuel post s (readLine reg ρ fuel det line s) := by
  obtain ⟨ld, e⟩ := s
  simp only at h he
  cases e with
  | none => exact LineOk.of_ok h trivial (le_refl _)
  | graph => exact LineOk.of_ok h trivial (le_refl _)
  | owned p id =>
    obtain ⟨n1, n2, n3, n4⟩ := dead_line he (Or.inr ⟨p, id, rfl⟩)
    rw [readLine]; simp only
    rw [readNodeLine, n1, n2, n3, n4]
    split
    · exact LineOk.of_ok h he.tail (le_refl _)
    · exact LineOk.of_ok h he.tail (le_refl _)
  | freed =>
    obtain ⟨n1, n2, n3, n4⟩ := dead_line he (Or.inl rfl)
    rw [readLine]; simp only
    rw [readNodeLine, n1, n2, n3, n4]
    split
    · exact LineOk.of_ok h he.tail (le_refl _)
    · exact LineOk.of_ok h he.tail (le_refl _)
  | pending nd =>
    have ht := he.tail
    obtain ⟨⟨⟨mid, m, a1, a2⟩, hl⟩, hord, hrange⟩ := he
    rw [readLine]; simp only
    rw [readNodeLine]
    cases scan2F "grid_pos=".toList line with
    | some v => exact LineOk.of_ok h ht (le_refl _)
    | none =>
    cases scan1D "variable=".toList line with
    | some v => exact LineOk.of_ok h ⟨⟨⟨mid, m, a1, a2⟩, hl⟩, ht.2⟩ (le_refl _)
    | none =>
    cases scan1D "node=".toList line with
    | some v =>
      refine LineOk.of_ok h ⟨⟨⟨mid, m, a1, a2⟩, ?_⟩, ht.2⟩ (le_refl _)
      intro c hc
      rcases nlink_lookup hc with h1 | h1
      · exact hl c h1
      · exact find_ptr h1
    | none =>
    cases scanDF "hybrid=".toList line with
    | some v =>
      refine LineOk.of_ok h ⟨⟨⟨mid, m, a1, a2⟩, ?_⟩, ht.2⟩ (le_refl _)
      intro c hc
      rcases nlink_hybrid hc with h1 | h1
      · exact hl c h1
      · exact find_ptr h1
    | none =>
    cases hid : scan1D "id=".toList line with
    | none => exact LineOk.of_ok h ht (le_refl _)
    | some v =>
      have hst : Starts "id=" line := scan1D_starts hid
      have hdead := hord [] line post rfl hst
      obtain ⟨v1, v2⟩ := hrange line List.mem_cons_self v hid
      simp only [a1, Option.bind_some, a2]
      by_cases hc : nd.vars.length = m.vars.length ∧ nd.lookups.length = m.lookups.length ∧ nd.hybrids.length = m.hybrids.length ∧ findNode ld.ed.nodes v.toNat = none
      · rw [if_pos hc]
        obtain ⟨c1, c2, c3, c4⟩ := hc
        obtain ⟨b1, b2, b3⟩ := emplace_ok (fuel := fuel) hw hρ h (nd := nd) ⟨mid, m, a1, a2, c1, c2, c3⟩ hl ⟨v1, by rw [maxId_eq]; omega⟩ c4
        refine ⟨?_, ?_, ?_⟩
        · cases hv : emplaceNode reg ρ fuel ld.ed nd v.toNat with
          | ub => exact absurd hv b1
          | deep => intro h; cases h
          | ok A => intro h; cases h
        · intro hf
          cases hv : emplaceNode reg ρ fuel ld.ed nd v.toNat with
          | ub => intro h; cases h
          | deep => exact absurd hv (b2 hf)
          | ok A => intro h; cases h
        · intro s' e
          cases hv : emplaceNode reg ρ fuel ld.ed nd v.toNat with
          | ub => rw [hv] at e; cases e
          | deep => rw [hv] at e; cases e
          | ok ed' =>
            rw [hv] at e
            simp only [Out.bind] at e
            cases e
            obtain ⟨d1, d2, _⟩ := b3 ed' hv
            exact ⟨d1, hdead, by simp [room, d2]⟩
      · rw [if_neg hc]
        exact LineOk.of_ok h hdead (by simp [room])

theorem readLines_ok (hw : WarpFirst reg) (hρ : IsOrder ρ) : ∀ (lines : List (List Char)) (s : Ld × Entry), EdOk reg s.1.ed → EntryOk reg s.1.ed lines s.2 →
    eachDo (readLine reg ρ fuel det) lines s ≠ .ub ∧ (s.1.ed.nodes.length + 2 < fuel → eachDo (readLine reg ρ fuel det) lines s ≠ .deep) ∧
    ∀ s', eachDo (readLine reg ρ fuel det) lines s = .ok s' → EdOk reg s'.1.ed ∧ s'.1.ed.nodes.length ≤ s.1.ed.nodes.length + room s.2 := by
  have key : ∀ (lines : List (List Char)) (s : Ld × Entry), EdOk reg s.1.ed → EntryOk reg s.1.ed lines s.2 →
      eachDo (readLine reg ρ fuel det) lines s ≠ .ub ∧ (s.1.ed.nodes.length + room s.2 + 1 < fuel → eachDo (readLine reg ρ fuel det) lines s ≠ .deep) ∧
      ∀ s', eachDo (readLine reg ρ fuel det) lines s = .ok s' → EdOk reg s'.1.ed ∧ s'.1.ed.nodes.length ≤ s.1.ed.nodes.length + room s.2 := by
    intro lines
    induction lines with
    | nil =>
      intro s h _
      exact ⟨(by intro h; cases h), fun _ => (by intro h; cases h), fun s' e => by cases e; exact ⟨h, Nat.le_add_right _ _⟩⟩
    | cons line post ih =>
      intro s h he
      obtain ⟨b1, b2, b3⟩ := readLine_ok (fuel := fuel) (det := det) hw hρ h he
      rw [eachDo]
      cases hv : readLine reg ρ fuel det line s with
      | ub => exact absurd hv b1
      | deep => exact ⟨(by intro h; cases h), fun hf => absurd hv (b2 (by omega)), fun s' e => by cases e⟩
      | ok s1 =>
        obtain ⟨c1, c2, c3⟩ := b3 s1 hv
        obtain ⟨d1, d2, d3⟩ := ih s1 c1 c2
        refine ⟨d1, fun hf => d2 (by omega), fun s' e => ?_⟩
        obtain ⟨e1, e2⟩ := d3 s' e
        exact ⟨e1, by omega⟩
  intro lines s h he
  obtain ⟨a1, a2, a3⟩ := key lines s h he
  refine ⟨a1, fun hf => a2 ?_, a3⟩
  have : room s.2 ≤ 1 := by cases s.2 <;> simp [room]
  omega

theorem readSection_ok (hw : WarpFirst reg) (hρ : IsOrder ρ) {s : Section} {ld : Ld} (h : EdOk reg ld.ed) (hs : FileOk [s]) :
    readSection reg ρ fuel det s ld ≠ .ub ∧ (ld.ed.nodes.length + 2 < fuel → readSection reg ρ fuel det s ld ≠ .deep) ∧
    ∀ ld', readSection reg ρ fuel det s ld = .ok ld' → EdOk reg ld'.ed ∧ ld'.ed.nodes.length ≤ ld.ed.nodes.length + 1 := by
  have he : EntryOk reg ld.ed s.lines (readOpen reg s) := by
    unfold readOpen
    by_cases ht : s.type = nodeType
    · obtain ⟨o1, o2⟩ := hs s (List.mem_singleton.mpr rfl) ht
      rw [if_pos ht]
      split
      · rename_i v r _
        by_cases hlt : v.toNat % 256 < reg.length
        · rw [if_pos hlt]
          refine ⟨⟨⟨_, _, rfl, List.getElem?_eq_getElem hlt⟩, ?_⟩, o1, o2⟩
          rintro c (hc | ⟨x, hc⟩)
          · cases hc
          · cases hc
        · rw [if_neg hlt]; trivial
      · trivial
    · rw [if_neg ht]
      by_cases hg : s.type = graphType
      · rw [if_pos hg]
        by_cases hn : s.name = "Settings".toList
        · rw [if_pos hn]; trivial
        · rw [if_neg hn]; trivial
      · rw [if_neg hg]; trivial
  obtain ⟨a1, a2, a3⟩ := readLines_ok (fuel := fuel) (det := det) hw hρ s.lines (ld, readOpen reg s) h he
  have hroom : room (readOpen reg s) ≤ 1 := by cases readOpen reg s <;> simp [room]
  unfold readSection
  cases hv : eachDo (readLine reg ρ fuel det) s.lines (ld, readOpen reg s) with
  | ub => exact absurd hv a1
  | deep => exact ⟨(by intro h; cases h), fun hf => absurd hv (a2 hf), fun ld' e => by cases e⟩
  | ok r =>
    obtain ⟨b1, b2⟩ := a3 r hv
    refine ⟨(by intro h; cases h), fun _ => (by intro h; cases h), fun ld' e => ?_⟩
    simp only [Out.bind] at e
    cases e
    simp only at b2
    exact ⟨b1, by omega⟩

theorem readFile_ok (hw : WarpFirst reg) (hρ : IsOrder ρ) : ∀ (file : List Section) (ld : Ld), EdOk reg ld.ed → FileOk file →
    eachDo (readSection reg ρ fuel det) file ld ≠ .ub ∧ (ld.ed.nodes.length + file.length + 1 < fuel → eachDo (readSection reg ρ fuel det) file ld ≠ .deep) ∧
    ∀ ld', eachDo (readSection reg ρ fuel det) file ld = .ok ld' → EdOk reg ld'.ed ∧ ld'.ed.nodes.length ≤ ld.ed.nodes.length + file.length := by
  intro file
  induction file with
  | nil =>
    intro ld h _
    exact ⟨(by intro h; cases h), fun _ => (by intro h; cases h), fun s' e => by cases e; exact ⟨h, Nat.le_add_right _ _⟩⟩
  | cons s file ih =>
    intro ld h hf
    have hs1 : FileOk [s] := fun x hx => hf x (by rw [List.mem_singleton.mp hx]; exact List.mem_cons_self)
    have hs2 : FileOk file := fun x hx => hf x (List.mem_cons_of_mem _ hx)
    obtain ⟨b1, b2, b3⟩ := readSection_ok (fuel := fuel) (det := det) hw hρ h hs1
    rw [eachDo]
    cases hv : readSection reg ρ fuel det s ld with
    | ub => exact absurd hv b1
    | deep => exact ⟨(by intro h; cases h), fun hfu => absurd hv (b2 (by simp only [List.length_cons] at hfu; omega)), fun s' e => by cases e⟩
    | ok s1 =>
      obtain ⟨c1, c2⟩ := b3 s1 hv
      obtain ⟨d1, d2, d3⟩ := ih s1 c1 hs2
      refine ⟨d1, fun hfu => d2 (by simp only [List.length_cons] at hfu; omega), fun s' e => ?_⟩
      obtain ⟨e1, e2⟩ := d3 s' e
      exact ⟨e1, by simp only [List.length_cons]; omega⟩

theorem applyAll_ok (hρ : IsOrder ρ) {st : Ed} (h : EdOk reg st) :
    applyAll reg ρ fuel st ≠ .ub ∧ (st.nodes.length < fuel → applyAll reg ρ fuel st ≠ .deep) ∧ ∀ st', applyAll reg ρ fuel st = .ok st' → EdOk reg st' ∧ st'.nodes = st.nodes := by
  obtain ⟨hi, hfit⟩ := h
  have ho : ∀ q ∈ (ρ st.nodes).map (·.1), q ∈ ptrs st := fun q hq => (mem_order hρ).mp hq
  have key : ∀ (l : List (Nat × Nat)) (A : Arena), (∀ n ∈ l, n ∈ st.nodes) → Less st.arena A →
      eachDo (fun n A => preview reg ((ρ st.nodes).map (·.1)) fuel n.1 A) l A ≠ .ub ∧
      (st.nodes.length < fuel → eachDo (fun n A => preview reg ((ρ st.nodes).map (·.1)) fuel n.1 A) l A ≠ .deep) ∧
      ∀ A', eachDo (fun n A => preview reg ((ρ st.nodes).map (·.1)) fuel n.1 A) l A = .ok A' → Less st.arena A' := by
    intro l
    induction l with
    | nil => intro A _ hl; exact ⟨(by intro h; cases h), fun _ => (by intro h; cases h), fun A' e => by cases e; exact hl⟩
    | cons n l ih =>
      intro A hn hl
      have hA := Inv.less hi hl
      have hp : n.1 ∈ ptrs st := List.mem_map.mpr ⟨n, hn n List.mem_cons_self, rfl⟩
      have hs := hA.good.safe hp
      have h1 := preview_safe (order := (ρ st.nodes).map (·.1)) fuel n.1 A hs (fun q hq => hA.good.lt (ho q hq))
      rw [eachDo]
      cases hv : preview reg ((ρ st.nodes).map (·.1)) fuel n.1 A with
      | ub => exact absurd hv h1
      | deep =>
        refine ⟨(by intro h; cases h), fun hf => ?_, fun A' e => by cases e⟩
        exact absurd hv (preview_stops ho hA.loops fuel n.1 A [] (by simpa using hf) List.nodup_nil (by simp) hp (by simp) (by simp) (Less.refl _) hs)
      | ok B => exact ih B (fun x hx => hn x (List.mem_cons_of_mem _ hx)) (hl.trans (preview_less _ _ _ _ hv))
  obtain ⟨a1, a2, a3⟩ := key (ρ st.nodes) st.arena (fun n hn => (hρ _).mem_iff.mp hn) (Less.refl _)
  unfold applyAll
  cases hv : eachDo (fun n A => preview reg ((ρ st.nodes).map (·.1)) fuel n.1 A) (ρ st.nodes) st.arena with
  | ub => exact absurd hv a1
  | deep => exact ⟨(by intro h; cases h), fun hf => absurd hv (a2 hf), fun A' e => by cases e⟩
  | ok A =>
    refine ⟨(by intro h; cases h), fun _ => (by intro h; cases h), fun st' e => ?_⟩
    simp only [Out.bind] at e
    cases e
    exact ⟨⟨Inv.less hi (a3 A hv), hfit.less (a3 A hv)⟩, rfl⟩

/-- Any such file. -/
theorem load_ok (hw : WarpFirst reg) (hρ : IsOrder ρ) {file : List Section} (hf : FileOk file) (pr : Prefs) :
    load reg ρ fuel det pr file ≠ .ub ∧ (file.length + 1 < fuel → load reg ρ fuel det pr file ≠ .deep) ∧
    ∀ ld, load reg ρ fuel det pr file = .ok ld → EdOk reg ld.ed ∧ ld.ed.nodes.length ≤ file.length := by
  have h0 : EdOk reg init := ⟨inv_init reg, fun q hq => by simp [ptrs, init] at hq⟩
  obtain ⟨a1, a2, a3⟩ := readFile_ok (fuel := fuel) (det := det) hw hρ file { ed := init, grid := [], prefs := pr } h0 hf
  have hz : ({ ed := init, grid := [], prefs := pr } : Ld).ed.nodes.length = 0 := rfl
  rw [hz] at a2 a3
  unfold load
  cases hv : eachDo (readSection reg ρ fuel det) file { ed := init, grid := [], prefs := pr } with
  | ub => exact absurd hv a1
  | deep => exact ⟨(by intro h; cases h), fun h => absurd hv (a2 (by omega)), fun ld e => by cases e⟩
  | ok l1 =>
    obtain ⟨b1, b2⟩ := a3 l1 hv
    obtain ⟨c1, c2, c3⟩ := applyAll_ok (fuel := fuel) hρ b1
    simp only [Out.bind]
    cases hx : applyAll reg ρ fuel l1.ed with
    | ub => exact absurd hx c1
    | deep => exact ⟨(by intro h; cases h), fun h => absurd hx (c2 (by omega)), fun ld e => by cases e⟩
    | ok ed =>
      refine ⟨(by intro h; cases h), fun _ => (by intro h; cases h), fun ld e => ?_⟩
      cases e
      obtain ⟨d1, d2⟩ := c3 ed hx
      simp only
      exact ⟨d1, by rw [d2]; omega⟩

end FastNoise.Editor
