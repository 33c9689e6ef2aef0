import Verif.EditorMenuLemmas
import Verif.NamesProps
/-!
# C66: the menus of the node editor offer every node type that fits, once

Specification: `offered` - what a menu has to show; `Ordered`.
-/
namespace FastNoise.EditorMenu
open FastNoise.Registry
open FastNoise.Names (Str)

variable {M : Type}

/-- What a menu has to offer: every node type that passes the test, in the submenus of its groups (in none, if the menu is drawn without groups). -/
def offered (groups : M → List Str) (valid : M → Bool) (drawGroups : Bool) (all : List M) : List (List Str × M) :=
  (all.filter valid).map fun m => (if drawGroups then groups m else [], m)

/-- Room for the recursion: one call more than the longest list of groups. -/
def Deep (groups : M → List Str) (all : List M) (depth : Nat) : Prop := ∀ m ∈ all, (groups m).length < depth

/-- **C66.** Whatever node types are registered, in whatever order, with group names that are not empty and have no tab: a menu offers exactly the node types that pass its test, each once, and each in
the submenus that are its groups; however deep the recursion is allowed to be. -/
theorem C66_menu (sort : List (Entry M) → List (Entry M)) (hs : ∀ l, (sort l).Perm l) (groups : M → List Str) (all : List M) (hf : ∀ m ∈ all, ∀ g ∈ groups m, '\t' ∉ g ∧ g ≠ [])
    (valid : M → Bool) (drawGroups : Bool) (depth : Nat) (hd : Deep groups all depth) :
    (draw (menu sort groups all) valid drawGroups depth none).Perm (offered groups valid drawGroups all) := by
  obtain ⟨U, h, -⟩ := inv_menu hs groups all fun m hm g hg => (hf m hm g hg).1
  have := draw_perm h valid drawGroups depth [] h.nil (by intro m hm; simpa using hd m hm)
  rw [pathKey_nil] at this
  refine this.trans (List.Perm.of_eq ?_)
  unfold offered
  have e : (all.filter fun m => valid m && decide ([] <+: groups m)) = all.filter valid := by
    congr 1; funext m; simp
  rw [e]
  refine List.map_congr_left fun m hm => ?_
  rw [List.length_nil, List.drop_zero]
  unfold shownIn
  cases drawGroups
  · rfl
  · simp only [if_true]
    congr 1
    rw [List.filter_eq_self]
    intro g hg
    have := (hf m (List.mem_filter.mp hm).1 g hg).2
    cases g
    · exact absurd rfl this
    · rfl

/-- **C66.** In particular every node type can be added from the context menu. -/
theorem C66_every_type (sort : List (Entry M) → List (Entry M)) (hs : ∀ l, (sort l).Perm l) (groups : M → List Str) (all : List M) (hf : ∀ m ∈ all, ∀ g ∈ groups m, '\t' ∉ g ∧ g ≠ [])
    (depth : Nat) (hd : Deep groups all depth) (m : M) (hm : m ∈ all) : (groups m, m) ∈ draw (menu sort groups all) (fun _ => true) true depth none := by
  rw [(C66_menu sort hs groups all hf (fun _ => true) true depth hd).mem_iff]
  unfold offered
  rw [List.mem_map]
  exact ⟨m, by simpa using hm, by simp⟩

/-- **C66.** "Convert To" offers exactly the other node types with the same groups; a dropped link exactly the node types with an input to connect it to, so that the first input exists. -/
theorem C66_tests [DecidableEq M] (sort : List (Entry M) → List (Entry M)) (hs : ∀ l, (sort l).Perm l) (groups : M → List Str) (lookups hybrids : M → Nat) (all : List M)
    (hf : ∀ m ∈ all, ∀ g ∈ groups m, '\t' ∉ g ∧ g ≠ []) (depth : Nat) (hd : Deep groups all depth) (node : M) :
    (∀ p m, (p, m) ∈ draw (menu sort groups all) (convertValid groups node) false depth none ↔ p = [] ∧ m ∈ all ∧ m ≠ node ∧ groups m = groups node) ∧
      ∀ p m, (p, m) ∈ draw (menu sort groups all) (dropValid lookups hybrids) true depth none ↔ p = groups m ∧ m ∈ all ∧ 0 < lookups m + hybrids m := by
  constructor
  · intro p m
    rw [(C66_menu sort hs groups all hf _ false depth hd).mem_iff]
    simp only [offered, List.mem_map, List.mem_filter, convertValid, matchingGroup, Bool.and_eq_true, decide_eq_true_eq, Prod.mk.injEq, Bool.false_eq_true, if_false]
    constructor
    · rintro ⟨x, ⟨a, b, c⟩, rfl, rfl⟩; exact ⟨rfl, a, b, c⟩
    · rintro ⟨rfl, a, b, c⟩; exact ⟨m, ⟨a, b, c⟩, rfl, rfl⟩
  · intro p m
    rw [(C66_menu sort hs groups all hf _ true depth hd).mem_iff]
    simp only [offered, List.mem_map, List.mem_filter, dropValid, Bool.or_eq_true, decide_eq_true_eq, Prod.mk.injEq, if_true]
    constructor
    · rintro ⟨x, ⟨a, b⟩, rfl, rfl⟩; exact ⟨rfl, a, by omega⟩
    · rintro ⟨rfl, a, b⟩; exact ⟨m, ⟨a, by omega⟩, rfl, rfl⟩

/-- **C66.** No submenu is shown empty, and none is left out that has something to show: `DrawUI` opens a submenu exactly if some node type is offered in it. -/
theorem C66_no_empty_submenu (H : Heap M) (valid : M → Bool) (drawGroups : Bool) : ∀ (depth : Nat) (key name : Str),
    canDraw H valid depth (.sub key name) = true ↔ draw H valid drawGroups depth (some key) ≠ []
  | 0, key, name => by simp [canDraw, draw]
  | depth + 1, key, name => by
    rw [canDraw, draw]
    cases hk : H (some key) with
    | none => simp
    | some g =>
      simp only [List.any_eq_true, ne_eq, List.flatMap_eq_nil_iff, not_forall, List.mem_filter]
      constructor
      · rintro ⟨e, he, hc⟩
        refine ⟨e, ⟨he, hc⟩, ?_⟩
        cases e with
        | node m => simp
        | sub k n =>
          have := (C66_no_empty_submenu H valid drawGroups depth k n).mp hc
          simpa using this
      · rintro ⟨e, ⟨he, hc⟩, -⟩
        exact ⟨e, he, hc⟩

/-! ## Order -/

/-- The entries of a menu come in the order of their names. -/
def Ordered (nodeName : M → Str) (l : List (Entry M)) : Prop := l.Pairwise fun a b => strLt (b.name nodeName) (a.name nodeName) = false

theorem ordered_addItem {nodeName : M → Str} {sort : List (Entry M) → List (Entry M)} (ho : ∀ l, Ordered nodeName (sort l)) {H : Heap M} (h : ∀ k G, H k = some G → Ordered nodeName G.items)
    (k : Option Str) (e : Entry M) : ∀ j G, addItem sort H k e j = some G → Ordered nodeName G.items := by
  intro j G hj
  unfold addItem at hj
  cases hk : H k with
  | none => rw [hk] at hj; exact h j G hj
  | some g =>
    rw [hk] at hj
    simp only [Heap.set] at hj
    split at hj
    · cases hj; exact ho _
    · exact h j G hj

theorem ordered_fold {nodeName : M → Str} {sort : List (Entry M) → List (Entry M)} (ho : ∀ l, Ordered nodeName (sort l)) : ∀ (gs : List Str) (s : Heap M × Option Str × Str),
    (∀ k G, s.1 k = some G → Ordered nodeName G.items) → ∀ k G, (gs.foldl (descend sort) s).1 k = some G → Ordered nodeName G.items
  | [], _, h => h
  | g :: gs, s, h => by
    refine ordered_fold ho gs _ ?_
    unfold descend
    simp only
    split
    · exact h
    · refine ordered_addItem ho ?_ _ _
      intro k G hk
      unfold Heap.set at hk
      split at hk
      · cases hk; exact List.Pairwise.nil
      · exact h k G hk

/-- **C66.** At every level the entries are in the order of their names. -/
theorem C66_ordered (nodeName : M → Str) (sort : List (Entry M) → List (Entry M)) (ho : ∀ l, Ordered nodeName (sort l)) (groups : M → List Str) (all : List M) (k : Option Str) (G : Group M)
    (hG : menu sort groups all k = some G) : Ordered nodeName G.items := by
  have key : ∀ (l : List M) (H : Heap M), (∀ k G, H k = some G → Ordered nodeName G.items) → ∀ k G, l.foldl (addNode sort groups) H k = some G → Ordered nodeName G.items := by
    intro l
    induction l with
    | nil => intro H h; exact h
    | cons m l ih =>
      intro H h
      refine ih _ ?_
      unfold addNode
      exact ordered_addItem ho (ordered_fold ho (groups m) (H, none, []) h) _ _
  refine key all empty ?_ k G hG
  intro k G hk
  unfold empty at hk
  split at hk
  · cases hk; exact List.Pairwise.nil
  · cases hk

theorem strLt_asymm : ∀ a b : Str, strLt a b = true → strLt b a = false
  | [], [], h => by simp [strLt] at h
  | [], _ :: _, _ => by simp [strLt]
  | _ :: _, [], h => by simp [strLt] at h
  | a :: as, b :: bs, h => by
    have := strLt_asymm as bs
    unfold strLt at h ⊢
    split at h
    · rw [if_neg (by omega), if_pos (by omega)]
    · split at h
      · cases h
      · rw [if_neg (by omega), if_neg (by omega)]; exact this h

theorem strLt_le_trans : ∀ a b c : Str, strLt b a = false → strLt c b = false → strLt c a = false
  | [], _, c, _, _ => by unfold strLt; rfl
  | _ :: _, [], _, h, _ => by simp [strLt] at h
  | _ :: _, _ :: _, [], _, h => by simp [strLt] at h
  | a :: as, b :: bs, c :: cs, h1, h2 => by
    have ih := strLt_le_trans as bs cs
    unfold strLt at h1 h2 ⊢
    split at h1
    · cases h1
    · split at h2
      · cases h2
      · split at h1 <;> split at h2
        · rw [if_neg (by omega), if_pos (by omega)]
        · rw [if_neg (by omega), if_pos (by omega)]
        · rw [if_neg (by omega), if_pos (by omega)]
        · rw [if_neg (by omega), if_neg (by omega)]; exact ih h1 h2

/-- There is a function as `std::sort` is assumed to be: it permutes, and its result is in order. -/
example (nodeName : M → Str) : ∃ sort : List (Entry M) → List (Entry M), (∀ l, (sort l).Perm l) ∧ ∀ l, Ordered nodeName (sort l) := by
  refine ⟨fun l => l.mergeSort fun a b => !strLt (b.name nodeName) (a.name nodeName), fun l => List.mergeSort_perm _ _, fun l => ?_⟩
  refine (List.pairwise_mergeSort ?_ ?_ l).imp ?_
  · intro a b c h1 h2
    simp only [Bool.not_eq_true'] at *
    exact strLt_le_trans _ _ _ h1 h2
  · intro a b
    cases h : strLt (b.name nodeName) (a.name nodeName)
    · rfl
    · simp [strLt_asymm _ _ h]
  · intro a b h; simpa using h

/-! ## The library's nodes -/

/-- The groups of a registered node. -/
def nodeGroups (m : NodeDef) : List Str := (groupsOf m.evs).map String.toList

/-- The text of a menu entry: `FormatMetadataNodeName( metadata, drawGroups )`, FastNoiseNodeEditor.cpp:283. -/
def label (drawGroups : Bool) (m : NodeDef) : Str := Names.nodeName { name := m.name.toList, formattedName := none, groups := nodeGroups m } drawGroups

/-- The library's nodes meet the conditions of the theorems above. -/
theorem nodes_ok : (∀ m ∈ nodes, ∀ g ∈ nodeGroups m, '\t' ∉ g ∧ g ≠ []) ∧ Deep nodeGroups nodes 3 := by
  unfold Deep
  constructor <;> decide +kernel

/-- **C66.** The library's node types: every one is offered once, under its groups, and no two entries that can be seen together have the same text. -/
theorem C66_shipped (sort : List (Entry NodeDef) → List (Entry NodeDef)) (hs : ∀ l, (sort l).Perm l) (valid : NodeDef → Bool) (drawGroups : Bool) :
    (draw (menu sort nodeGroups nodes) valid drawGroups 3 none).Perm (offered nodeGroups valid drawGroups nodes) ∧
      (((draw (menu sort nodeGroups nodes) valid drawGroups 3 none)).map fun e => (e.1, label drawGroups e.2)).Nodup := by
  have h := C66_menu sort hs nodeGroups nodes nodes_ok.1 valid drawGroups 3 nodes_ok.2
  refine ⟨h, ?_⟩
  rw [(h.map _).nodup_iff]
  have hall : ∀ dg : Bool, (nodes.map fun m => ((if dg then nodeGroups m else []), label dg m)).Nodup := by decide +kernel
  unfold offered
  rw [List.map_map]
  exact (hall drawGroups).sublist ((List.filter_sublist (p := valid)).map _)

/-- A sort that leaves the order: in "Domain Warp" > "Fractal" there are two node types. -/
example : ∃ sort : List (Entry NodeDef) → List (Entry NodeDef), (∀ l, (sort l).Perm l) ∧
    ([["Domain Warp".toList, "Fractal".toList]].map fun p => (draw (menu sort nodeGroups nodes) (fun _ => true) true 3 none).countP fun e => e.1 = p) = [2] := by
  refine ⟨id, fun l => List.Perm.refl l, ?_⟩
  decide +kernel

/-- What a member list shows of a variable when node types are compared: names only (`MatchingMembers`, FastNoiseNodeEditor.cpp:50-57). -/
def sameMembers (a b : NodeDef) : Bool :=
  (varsOf a.evs).map (·.name) = (varsOf b.evs).map (·.name) && (srcsOf a.evs).map (·.name) = (srcsOf b.evs).map (·.name) && (hybsOf a.evs).map (·.name) = (hybsOf b.evs).map (·.name)

/-- **C66.** "Convert To" keeps the values of a node when the member names match (FastNoiseNodeEditor.cpp:1147-1152).  For the library's nodes that is safe although only names are compared: members of
equal name also agree in type, dimension, number of choices and kind of source. -/
theorem C66_convert_safe : ∀ a ∈ nodes, ∀ b ∈ nodes, convertValid nodeGroups a b = true → sameMembers a b = true →
    (varsOf a.evs).map (fun v => (v.type, v.dim, v.enums.length)) = (varsOf b.evs).map (fun v => (v.type, v.dim, v.enums.length)) ∧
      (srcsOf a.evs).map (·.kind) = (srcsOf b.evs).map (·.kind) ∧ (hybsOf a.evs).map (·.dim) = (hybsOf b.evs).map (·.dim) := by
  decide +kernel

example : ∃ a ∈ nodes, ∃ b ∈ nodes, convertValid nodeGroups a b = true ∧ sameMembers a b = true := by decide +kernel

end FastNoise.EditorMenu
