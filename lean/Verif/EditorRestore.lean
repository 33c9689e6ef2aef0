import Verif.EditorCrash
/-! # From the reader's lemmas to the specification -/
namespace FastNoise.Editor
open FastNoise.Ser FastNoise.Deser FastNoise.Stream FastNoise.Spec FastNoise.RT
open Relation

variable {reg : Reg}

theorem SameNode.imp {rel rel' : UInt32 → UInt32 → Prop} {nodes nodes' : List (Nat × Nat)} {nd nd' : NodeData} (h : SameNode rel nodes nodes' nd nd')
    (hr : ∀ x ∈ nd.hybrids, ∀ v', rel x.2 v' → rel' x.2 v') : SameNode rel' nodes nodes' nd nd' := by
  refine ⟨h.type, h.vars, h.lookups, ?_⟩
  have := h.hybrids
  generalize nd.hybrids = l at this hr
  generalize nd'.hybrids = l' at this
  induction this with
  | nil => exact .nil
  | cons h1 _ ih => exact .cons ⟨h1.1, hr _ List.mem_cons_self _ h1.2⟩ (ih fun x hx => hr x (List.mem_cons_of_mem _ hx))

theorem lookup_gridOf {grid : Grid} : ∀ {qs : List (Nat × Nat)} {p id : Nat}, (p, id) ∈ qs → (gridOf grid qs).lookup id = some (reloadF (grid id).1, reloadF (grid id).2) := by
  intro qs
  induction qs with
  | nil => intro p id h; cases h
  | cons n qs ih =>
    intro p id h
    rw [gridOf, List.map_cons, List.lookup_cons]
    by_cases e : id = n.2
    · subst e; simp
    · have : (id == n.2) = false := by simpa using e
      rw [this]
      rcases List.mem_cons.mp h with h | h
      · rw [← h] at e; exact absurd rfl e
      · exact ih h

/-- Every node is back. -/
theorem same_graph {rel : UInt32 → UInt32 → Prop} {st : Ed} (h : Inv reg st) (hfit : AllFit reg st) {qs : List (Nat × Nat)} (hq : Chain st qs) (hall : ∀ n, n ∈ qs ↔ n ∈ st.nodes)
    (hr : ∀ p nd x, Shown st p → st.arena[p]? = some nd → x ∈ nd.hybrids → rel x.2 (reloadF x.2)) : SameGraph rel st (back st qs) := by
  have hb := back_ok h hfit hq
  constructor
  · intro id
    rw [mem_back]
    exact ⟨fun ⟨p, hp⟩ => ⟨p, (hall _).mpr hp⟩, fun ⟨p, hp⟩ => ⟨p, (hall _).mp hp⟩⟩
  · intro id p p' hp hp'
    obtain ⟨q', nd, nd', h1, h2, h3, h4⟩ := hb.same p id ((hall _).mpr hp)
    have := same_id hb.inv h1 hp'
    subst this
    refine ⟨nd, nd', h2, h3, h4.imp ?_⟩
    rintro x hx v' rfl
    exact hr p nd x ⟨id, hp⟩ h2 hx

theorem find_none_of_hidden {st : Ed} {p : Nat} (h : ¬ Shown st p) : (st.nodes.find? fun n => n.1 = p) = none := by
  rw [List.find?_eq_none]
  rintro ⟨q, id⟩ hq
  simp only [decide_eq_true_eq]
  rintro rfl
  exact h ⟨id, hq⟩

/-- What is loaded is what was saved. -/
theorem restored {rel : UInt32 → UInt32 → Prop} {st : Ed} (h : Inv reg st) (hfit : AllFit reg st) {grid : Grid} {pr pr0 : Prefs} {det : Bool} {qs : List (Nat × Nat)} (hq : Chain st qs)
    (hall : ∀ n, n ∈ qs ↔ n ∈ st.nodes) (hr : AllValues (fun v => rel v (reloadF v)) st grid pr) :
    Restored rel st grid pr pr0 det { ed := back st qs, grid := gridOf grid qs, prefs := prefsAfter st pr pr0 det qs } := by
  refine ⟨same_graph h hfit hq hall hr.hybrids, ?_, ?_, ?_, rfl, rfl, ?_, ?_⟩
  · intro p id hp
    obtain ⟨r1, r2⟩ := hr.places p id hp
    exact ⟨_, lookup_gridOf ((hall _).mpr hp), r1, r2⟩
  · exact hr.offset
  · exact hr.scale
  · intro hd p id hs hp
    obtain ⟨p', hp'⟩ := mem_back.mpr ⟨p, (hall _).mpr hp⟩
    refine ⟨p', ?_, hp'⟩
    show selectedAfter st pr pr0 det qs = some p'
    unfold selectedAfter
    rw [if_pos hd, hs, Option.bind_some, find_of_ptr h hp]
    simp only
    rw [find_of_mem (back_ok h hfit hq).inv hp']
    rfl
  · intro hn
    show selectedAfter st pr pr0 det qs = pr0.selected
    unfold selectedAfter
    rcases hn with hn | hn
    · rw [hn]; rfl
    · have : (pr.selected.bind fun p => st.nodes.find? fun n => n.1 = p) = none := by
        cases hs : pr.selected with
        | none => rfl
        | some p => rw [Option.bind_some]; exact find_none_of_hidden (hn p hs)
      rw [this]
      simp

/-- Values typed in come back. -/
theorem kept_reload {v : UInt32} (h : Kept v) : reloadF v = v := by
  rcases h with ⟨text, ⟨sign, whole, part, hs, hp, rfl⟩, hv⟩ | ⟨h1, h2⟩ | h
  · refine reloadF_eq ?_
    have hpt : ∀ rest, NoDig rest → scanMag (dec whole ++ '.' :: six part ++ rest) = some (nearestFloat (whole * 10 ^ 6 + part) (10 ^ 6), rest) := fun rest hr => scanMag_point hp rest hr
    have hpt0 := hpt [] noDig_nil
    rw [List.append_nil] at hpt0
    have hlt : nearestFloat (whole * 10 ^ 6 + part) (10 ^ 6) < 2 ^ 31 := by
      rw [nearestFloat_eq]; exact lt_of_le_of_lt (min_le_right _ _) (by norm_num)
    obtain ⟨k, cs, hk, hd⟩ := dec_head whole
    have hmag : v.toNat % 2 ^ 31 = nearestFloat (whole * 10 ^ 6 + part) (10 ^ 6) := by
      rcases hs with rfl | rfl
      · rw [scanF_eq, List.nil_append] at hv
        have hss : scanSign (dec whole ++ '.' :: six part) = (false, dec whole ++ '.' :: six part) := by
          rw [hd, List.cons_append]; exact scanSign_digit hk _
        rw [hss] at hv
        simp only [hpt0, Option.map_some, Bool.false_eq_true, if_false, Option.some.injEq, Prod.mk.injEq] at hv
        rw [← hv.1, UInt32.toNat_ofNat']
        generalize nearestFloat (whole * 10 ^ 6 + part) (10 ^ 6) = N at hlt
        omega
      · rw [scanF_eq] at hv
        have hss : scanSign (['-'] ++ dec whole ++ '.' :: six part) = (true, dec whole ++ '.' :: six part) := rfl
        rw [hss] at hv
        simp only [hpt0, Option.map_some, if_true, Option.some.injEq, Prod.mk.injEq] at hv
        rw [← hv.1, UInt32.toNat_ofNat']
        generalize nearestFloat (whole * 10 ^ 6 + part) (10 ^ 6) = N at hlt
        omega
    rw [hmag]
    exact reloadMag_typed _
  · exact (savedValue_reload v).large h1 h2
  · exact (savedValue_reload v).inf h

/-- The node data loaded holds only values that come back. -/
theorem back_values {st : Ed} (h : Inv reg st) (hfit : AllFit reg st) {qs : List (Nat × Nat)} (hq : Chain st qs) {p : Nat} {nd : NodeData} {x : Option Nat × UInt32} (hs : Shown (back st qs) p)
    (hnd : (back st qs).arena[p]? = some nd) (hx : x ∈ nd.hybrids) : reloadF x.2 = x.2 := by
  obtain ⟨id, hid⟩ := hs
  obtain ⟨q, hq'⟩ := mem_back.mp ⟨p, hid⟩
  have hb := back_ok h hfit hq
  obtain ⟨p', n1, n2, b1, b2, b3, b4⟩ := hb.same q id hq'
  have := same_id hb.inv b1 hid
  subst this
  rw [b3] at hnd; cases hnd
  obtain ⟨i, hi⟩ := List.getElem?_of_mem hx
  obtain ⟨y, _, _, hy⟩ := forall₂_get b4.hybrids hi
  rw [hy]; exact reloadF_idem _

end FastNoise.Editor
