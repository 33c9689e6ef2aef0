import Verif.Names
/-! # C33 (display names) -/
namespace FastNoise.Names

/-! ## Specification -/

/-- Specification: a space between a lower case letter and a following capital or digit, nothing else changed. -/
def spaced : Str → Str
  | [] => []
  | [a] => [a]
  | a :: b :: r => if isBreak a b then a :: ' ' :: spaced (b :: r) else a :: spaced (b :: r)

theorem insertIdx_append (pre : Str) (c d : Char) (r : Str) : (pre ++ c :: r).insertIdx pre.length d = pre ++ d :: c :: r := by
  induction pre with
  | nil => rfl
  | cons p pre ih => simp only [List.cons_append, List.length_cons, List.insertIdx_succ_cons, ih]

theorem fmtLoop_eq : ∀ (rest : Str) (a : Char) (pre : Str), fmtLoop (pre.length + 1) (pre ++ a :: rest) = pre ++ spaced (a :: rest)
  | [], a, pre => by
    rw [fmtLoop, dif_neg (by simp)]; rfl
  | b :: rest, a, pre => by
    have hlen : pre.length + 1 < (pre ++ a :: b :: rest).length := by simp
    rw [fmtLoop, dif_pos hlen]
    have e1 : (pre ++ a :: b :: rest)[pre.length + 1] = b := by
      rw [List.getElem_append_right (by omega)]; simp
    have e0 : (pre ++ a :: b :: rest)[pre.length + 1 - 1]'(by omega) = a := by
      simp
    rw [e1, e0, spaced]
    split_ifs with h
    · have ins : (pre ++ a :: b :: rest).insertIdx (pre.length + 1) ' ' = (pre ++ [a, ' ']) ++ b :: rest := by
        have := insertIdx_append (pre ++ [a]) b ' ' rest
        simpa using this
      rw [ins]
      have := fmtLoop_eq rest b (pre ++ [a, ' '])
      simp only [List.length_append, List.length_cons, List.length_nil] at this
      rw [show pre.length + 1 + 2 = pre.length + (0 + 1 + 1) + 1 by omega, this]
      simp
    · have := fmtLoop_eq rest b (pre ++ [a])
      simp only [List.length_append, List.length_cons, List.length_nil] at this
      rw [show pre ++ a :: b :: rest = (pre ++ [a]) ++ b :: rest by simp, show pre.length + 1 + 1 = pre.length + (0 + 1) + 1 by omega, this]
      simp

/-- **C33**: without an explicit display name and without group removal, a space is inserted exactly between a lower case letter and a following
capital or digit. -/
theorem C33_spaced (m : Meta) (h : m.formattedName = none) : nodeName m false = spaced m.name := by
  unfold nodeName
  simp only [h, Bool.false_eq_true, if_false]
  match hn : m.name with
  | [] => rw [fmtLoop, dif_neg (by simp)]; rfl
  | a :: rest =>
    have := fmtLoop_eq rest a []
    simp only [List.length_nil, List.nil_append, Nat.zero_add] at this
    rw [this]
    have hne : (spaced (a :: rest)).isEmpty = false := by
      cases rest with
      | nil => rfl
      | cons b r => rw [spaced]; split_ifs <;> rfl
    rw [hne]; rfl

theorem spaced_filter : ∀ s : Str, (∀ c ∈ s, c ≠ ' ') → (spaced s).filter (· != ' ') = s
  | [], _ => rfl
  | [a], h => by
    have := h a (by simp)
    simp [spaced, this]
  | a :: b :: r, h => by
    have ha := h a (by simp)
    have ih := spaced_filter (b :: r) (fun c hc => h c (by simp at hc ⊢; tauto))
    rw [spaced]
    split_ifs
    · simp [ih, ha]
    · simp [ih, ha]

/-- **C33**: removing the spaces from the display name gives the class name back (class names contain no spaces). -/
theorem C33_faithful (m : Meta) (h : m.formattedName = none) (hs : ∀ c ∈ m.name, c ≠ ' ') : (nodeName m false).filter (· != ' ') = m.name := by
  rw [C33_spaced m h]; exact spaced_filter _ hs

/-- **C33**: hence different nodes have different display names. -/
theorem C33_distinct (m m' : Meta) (h : m.formattedName = none) (h' : m'.formattedName = none) (hs : ∀ c ∈ m.name, c ≠ ' ') (hs' : ∀ c ∈ m'.name, c ≠ ' ')
    (e : nodeName m false = nodeName m' false) : m.name = m'.name := by
  rw [← C33_faithful m h hs, e, C33_faithful m' h' hs']

/-- The first character stays, and the name never starts or ends with an inserted space or gets two in a row. -/
theorem spaced_head : ∀ (a : Char) (r : Str), ∃ t, spaced (a :: r) = a :: t
  | a, [] => ⟨[], rfl⟩
  | a, b :: r => by rw [spaced]; split_ifs <;> exact ⟨_, rfl⟩

/-- No space at the start, at the end, or next to another one. -/
def Tidy (s : Str) : Prop := s.head? ≠ some ' ' ∧ s.getLast? ≠ some ' ' ∧ ∀ p q, s ≠ p ++ ' ' :: ' ' :: q

theorem spaced_last : ∀ s : Str, (spaced s).getLast? = s.getLast?
  | [] => rfl
  | [_] => rfl
  | a :: b :: r => by
    have ih := spaced_last (b :: r)
    obtain ⟨t, ht⟩ := spaced_head b r
    rw [spaced]
    split_ifs
    · rw [ht] at ih ⊢; rw [List.getLast?_cons_cons, List.getLast?_cons_cons, ih, List.getLast?_cons_cons]
    · rw [ht] at ih ⊢; rw [List.getLast?_cons_cons, ih, List.getLast?_cons_cons]

theorem spaced_no_double : ∀ s : Str, (∀ c ∈ s, c ≠ ' ') → ∀ p q, spaced s ≠ p ++ ' ' :: ' ' :: q
  | [], _, p, q => by simp [spaced]
  | [a], h, p, q => by
    intro e
    have := congrArg List.length e
    simp [spaced] at this
    omega
  | a :: b :: r, h, p, q => by
    have ih := spaced_no_double (b :: r) (fun c hc => h c (by simp at hc ⊢; tauto))
    have ha := h a (by simp)
    have hb := h b (by simp)
    obtain ⟨t, ht⟩ := spaced_head b r
    rw [spaced]
    split_ifs
    · intro e
      match p with
      | [] => simp at e; exact ha e.1
      | [p0] =>
        simp only [List.cons_append, List.nil_append, List.cons.injEq, ht] at e
        exact hb e.2.2.1
      | p0 :: p1 :: p =>
        simp only [List.cons_append, List.cons.injEq] at e
        exact ih p q e.2.2
    · intro e
      match p with
      | [] => simp at e; exact ha e.1
      | p0 :: p =>
        simp only [List.cons_append, List.cons.injEq] at e
        exact ih p q e.2

/-- **C33**: the spaces are tidy. -/
theorem C33_tidy (m : Meta) (h : m.formattedName = none) (hs : ∀ c ∈ m.name, c ≠ ' ') (hne : m.name ≠ []) : Tidy (nodeName m false) := by
  rw [C33_spaced m h]
  refine ⟨?_, ?_, spaced_no_double _ hs⟩
  · match hn : m.name with
    | [] => exact absurd hn hne
    | a :: r =>
      obtain ⟨t, ht⟩ := spaced_head a r
      rw [ht]
      intro e
      exact hs a (by rw [hn]; simp) (by simpa using e)
  · rw [spaced_last]
    intro e
    exact hs ' ' (List.mem_of_getLast? e) rfl

/-! ## Group removal -/

theorem find_spec (g : Str) : ∀ s : Str,
    (∀ p, find g s = some p → ∃ q, s.drop p = g ++ q ∧ p ≤ s.length ∧ ∀ p' < p, ¬ g <+: s.drop p') ∧ (find g s = none → ¬ g <:+: s)
  | [] => by
    unfold find
    constructor
    · intro p hp
      split_ifs at hp with h
      cases hp
      have : g = [] := by simpa using h
      exact ⟨[], by simp [this], by simp, by intro p' hp'; omega⟩
    · intro hn hi
      split_ifs at hn with h
      exact h (by simpa using hi)
  | c :: s => by
    obtain ⟨ih1, ih2⟩ := find_spec g s
    unfold find
    constructor
    · intro p hp
      split_ifs at hp with h
      · cases hp
        obtain ⟨q, hq⟩ := List.isPrefixOf_iff_prefix.mp h
        exact ⟨q, by simp [hq], by simp, by intro p' hp'; omega⟩
      · cases hf : find g s with
        | none => rw [hf] at hp; cases hp
        | some p0 =>
          rw [hf] at hp
          simp only [Option.map_some, Option.some.injEq] at hp
          subst hp
          obtain ⟨q, hq, hl, hmin⟩ := ih1 p0 hf
          refine ⟨q, by simpa using hq, by simp; omega, ?_⟩
          intro p' hp'
          cases p' with
          | zero => intro hpre; exact h (List.isPrefixOf_iff_prefix.mpr hpre)
          | succ p' => simpa using hmin p' (by omega)
    · intro hn
      split_ifs at hn with h
      have hfn : find g s = none := by simpa using hn
      intro hi
      rcases List.infix_cons_iff.mp hi with h1 | h1
      · exact h (List.isPrefixOf_iff_prefix.mpr h1)
      · exact ih2 hfn h1

/-- **C33**, one group: if the group does not occur nothing happens; otherwise its first occurrence and the one character after it, if there is one,
are cut out and everything else stays.  (The property asks that only the group word and the separating space go; see `C33_removes_letter`.) -/
theorem C33_remove_group_partial (s g : Str) :
    (¬ g <:+: s → removeGroup s g = s) ∧
    (g <:+: s → ∃ pre c post, s = pre ++ g ++ c ++ post ∧ c.length ≤ 1 ∧ (c = [] → post = []) ∧ removeGroup s g = pre ++ post ∧ ∀ p' < pre.length, ¬ g <+: s.drop p') := by
  obtain ⟨h1, h2⟩ := find_spec g s
  unfold removeGroup
  cases hf : find g s with
  | none => exact ⟨fun _ => rfl, fun hi => absurd hi (h2 hf)⟩
  | some p =>
    obtain ⟨q, hq, hl, hmin⟩ := h1 p hf
    have hs : s = s.take p ++ (g ++ q) := by rw [← hq, List.take_append_drop]
    constructor
    · intro hn
      exact absurd ⟨s.take p, q, by rw [List.append_assoc, ← hs]⟩ hn
    · intro _
      refine ⟨s.take p, q.take 1, q.drop 1, ?_, by rw [List.length_take]; exact Nat.min_le_left _ _, ?_, ?_, ?_⟩
      · rw [List.append_assoc, List.take_append_drop, List.append_assoc, ← hs]
      · intro e
        cases q with
        | nil => rfl
        | cons a q => simp at e
      · simp only []
        congr 1
        rw [← List.drop_drop, hq, ← List.drop_drop, List.drop_left]
      · simp only [List.length_take, Nat.min_eq_left hl]
        exact hmin

/-- **C33**, the intended case: a leading group word and its space are removed, the rest of the name remains. -/
theorem C33_remove_leading_group (g rest : Str) : removeGroup (g ++ ' ' :: rest) g = rest := by
  have hf : find g (g ++ ' ' :: rest) = some 0 := by
    cases g with
    | nil => simp [find]
    | cons a g =>
      simp only [List.cons_append, find]
      rw [if_pos]
      rw [List.isPrefixOf_iff_prefix]
      exact ⟨' ' :: rest, by simp⟩
  unfold removeGroup
  rw [hf]
  simp

/-- **C33**: whatever the groups are, a node with a name gets a display name. -/
theorem C33_never_empty (m : Meta) (b : Bool) (h : m.name ≠ []) : nodeName m b ≠ [] := by
  unfold nodeName
  simp only []
  generalize (if b = true then List.foldl removeGroup _ m.groups else _) = s
  split_ifs with he
  · exact h
  · intro e; rw [e] at he; simp at he

/-- The character after the group goes whatever it is: with group "Fractal" a node "FractalsSum" would be shown as "Sum" minus a letter more than the
group: the display name "Fractals Sum" becomes " Sum". -/
theorem C33_removes_letter :
    nodeName ⟨['F', 'r', 'a', 'c', 't', 'a', 'l', 's', 'S', 'u', 'm'], none, [['F', 'r', 'a', 'c', 't', 'a', 'l']]⟩ true = [' ', 'S', 'u', 'm'] := by
  have e := fmtLoop_eq ['r', 'a', 'c', 't', 'a', 'l', 's', 'S', 'u', 'm'] 'F' []
  rw [List.nil_append, List.length_nil, Nat.zero_add] at e
  unfold nodeName
  simp only []
  rw [e]
  decide

/-! ## Member names -/

/-- **C33**: members without a dimension keep their name; per-dimension members get the axis letter and a space in front. -/
theorem C33_member (name : Str) : memberName name (-1) = some name ∧ memberName name 0 = some ('X' :: ' ' :: name) ∧ memberName name 1 = some ('Y' :: ' ' :: name) ∧
    memberName name 2 = some ('Z' :: ' ' :: name) ∧ memberName name 3 = some ('W' :: ' ' :: name) := ⟨rfl, rfl, rfl, rfl, rfl⟩

/-- **C33**: defined for every dimension index up to 3, and only those. -/
theorem C33_member_defined (name : Str) (d : Int) : (memberName name d).isSome ↔ d ≤ 3 := by
  unfold memberName
  split_ifs with h
  · by_cases h3 : d ≤ 3
    · rcases (by omega : d = 0 ∨ d = 1 ∨ d = 2 ∨ d = 3) with rfl | rfl | rfl | rfl <;> simp [dimStrings]
    · rw [List.getElem?_eq_none (by simp [dimStrings]; omega)]
      simp; omega
  · simp; omega

/-- **C33**: the four per-dimension members made from one name are shown differently. -/
theorem C33_member_distinct (name name' : Str) (d d' : Int) (h : 0 ≤ d ∧ d ≤ 3) (h' : 0 ≤ d' ∧ d' ≤ 3) (e : memberName name d = memberName name' d') :
    name = name' ∧ d = d' := by
  rcases (by omega : d = 0 ∨ d = 1 ∨ d = 2 ∨ d = 3) with rfl | rfl | rfl | rfl <;>
  rcases (by omega : d' = 0 ∨ d' = 1 ∨ d' = 2 ∨ d' = 3) with rfl | rfl | rfl | rfl <;>
  simp [memberName, dimStrings] at e ⊢ <;> exact e

/-! ## Examples -/

/-- Shows that the hypotheses of the theorems above are met: `DomainWarpGradient` in group "Domain Warp". -/
example : nodeName ⟨'D' :: ['o', 'm', 'a', 'i', 'n', 'W', 'a', 'r', 'p', 'G', 'r', 'a', 'd', 'i', 'e', 'n', 't'], none, [['D', 'o', 'm', 'a', 'i', 'n', ' ', 'W', 'a', 'r', 'p']]⟩ true =
    ['G', 'r', 'a', 'd', 'i', 'e', 'n', 't'] := by
  have e := fmtLoop_eq ['o', 'm', 'a', 'i', 'n', 'W', 'a', 'r', 'p', 'G', 'r', 'a', 'd', 'i', 'e', 'n', 't'] 'D' []
  rw [List.nil_append, List.length_nil, Nat.zero_add] at e
  unfold nodeName
  simp only []
  rw [e]
  decide

example : spaced ['R', 'G', 'B', 'A', 'x', '8'] = ['R', 'G', 'B', 'A', 'x', ' ', '8'] := by decide

end FastNoise.Names
