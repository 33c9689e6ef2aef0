import Verif.Wiki
import Verif.TextureLemmas
import Verif.FloatModifiersLemmas
/-!
# C65: the wiki generator documents every registered node

Specification: `Complete` and `Fits` (what a generator that can be shown is), `brLines` (line breaks for the wiki), `decodeBmp` of `TextureSpec.lean` (the file format).
-/
namespace FastNoise.Wiki
open FastNoise.Ser FastNoise.Registry
open FastNoise.Names (Str)

/-! ## Specification -/

/-- Every source of the generator, and of the generators below it, is set. -/
inductive Complete : Gen → Prop where
  | mk (n : String) (w : Bool) (l : List (Option Gen)) (h : none ∉ l) (h' : ∀ g, some g ∈ l → Complete g) : Complete (.mk n w l)

/-- The generator is a node of class `m` whose sources have the classes that `m` asks for. -/
def Fits (m : NodeDef) (g : Gen) : Prop :=
  g.node = m.name ∧ g.isWarp = m.isWarp ∧ g.srcs.length = (srcsOf m.evs).length ∧
    ∀ (i : Nat) (s : SrcDef) (c : Gen), (srcsOf m.evs)[i]? = some s → g.srcs[i]? = some (some c) → s.kind = .warp → c.isWarp = true

/-- All sources of the node take any generator. -/
def Plain (m : NodeDef) : Prop := ∀ s ∈ srcsOf m.evs, s.kind = .any

/-- The order of registration the wiki generator relies on: the first domain warp is registered before every node that needs one. -/
def WarpFirst (all : List NodeDef) : Prop :=
  ∃ pre w post, all = pre ++ w :: post ∧ (∀ m ∈ pre, Plain m ∧ m.isWarp = false) ∧ w.isWarp = true ∧ Plain w

/-! ## Building -/

theorem setSources_plain (b : NodeDef → Option (Option Gen)) (all : List NodeDef) : ∀ l : List SrcDef, (∀ s ∈ l, s.kind = .any) →
    setSources b all l = some (some (l.map fun _ => some source))
  | [], _ => rfl
  | s :: ss, h => by
    have hs := h s (by simp)
    rw [setSources, hs, setSources_plain b all ss fun t ht => h t (by simp [ht])]
    rfl

theorem build_plain (all : List NodeDef) (d : Nat) (m : NodeDef) (h : Plain m) :
    build all (d + 1) m = some (some (.mk m.name m.isWarp ((srcsOf m.evs).map fun _ => some source))) := by
  rw [build, setSources_plain _ _ _ h]; rfl

theorem tryAll_first (b : NodeDef → Option (Option Gen)) (w : NodeDef) (post : List NodeDef) (hw : w.isWarp = true) (pw : Plain w)
    (hb : ∀ m, Plain m → b m = some (some (.mk m.name m.isWarp ((srcsOf m.evs).map fun _ => some source)))) :
    ∀ pre : List NodeDef, (∀ m ∈ pre, Plain m ∧ m.isWarp = false) →
      tryAll b .warp (pre ++ w :: post) = some (.found (.mk w.name true ((srcsOf w.evs).map fun _ => some source)))
  | [], _ => by
    have : ((srcsOf w.evs).all fun s => accepts s.kind source) = true := by
      rw [List.all_eq_true]; intro s hs; rw [pw s hs]; rfl
    rw [List.nil_append, tryAll, hb w pw]
    show (if accepts .warp (.mk w.name w.isWarp _) then _ else _) = _
    rw [if_pos (show accepts .warp (.mk w.name w.isWarp _) = true from hw)]
    simp only [this, if_true, Gen.node, Gen.isWarp, hw]
  | m :: ms, h => by
    have hm := h m (by simp)
    rw [List.cons_append, tryAll, hb m hm.1]
    simp only [accepts, Gen.isWarp, hm.2, Bool.false_eq_true, if_false]
    exact tryAll_first b w post hw pw hb ms fun x hx => h x (by simp [hx])

/-- The source a slot gets. -/
def slot (w : NodeDef) : Kind → Gen
  | .any => source
  | .warp => .mk w.name true ((srcsOf w.evs).map fun _ => some source)

theorem setSources_all (b : NodeDef → Option (Option Gen)) (all : List NodeDef) (w : NodeDef)
    (ht : tryAll b .warp all = some (.found (slot w .warp))) : ∀ l : List SrcDef,
      setSources b all l = some (some (l.map fun s => some (slot w s.kind)))
  | [] => rfl
  | s :: ss => by
    rw [setSources, setSources_all b all w ht ss]
    cases hk : s.kind with
    | any => simp [accepts, hk, slot]
    | warp => rw [ht]; simp [accepts, source, Gen.isWarp, hk]

theorem complete_source : Complete source := .mk _ _ _ (by simp) (by simp)

theorem complete_slot (w : NodeDef) : ∀ k : Kind, Complete (slot w k)
  | .any => complete_source
  | .warp => .mk _ _ _ (by simp) (by
      intro s hs
      obtain ⟨_, _, e⟩ := List.mem_map.mp hs
      cases e
      exact complete_source)

/-- **C65.** Whatever nodes there are: if the first domain warp is registered before every node that needs one, `BuildGenerator` returns, nested at most two calls deep, for every node a
generator of that class all of whose sources are set, to generators of the right class. -/
theorem C65_build (all : List NodeDef) (h : WarpFirst all) (m : NodeDef) (depth : Nat) (hd : 2 ≤ depth) :
    ∃ g, build all depth m = some (some g) ∧ Fits m g ∧ Complete g := by
  obtain ⟨pre, w, post, rfl, hpre, hw, pw⟩ := h
  obtain ⟨d, rfl⟩ : ∃ d, depth = d + 2 := ⟨depth - 2, by omega⟩
  have ht : tryAll (build (pre ++ w :: post) (d + 1)) .warp (pre ++ w :: post) = some (.found (slot w .warp)) :=
    tryAll_first _ w post hw pw (fun m hm => build_plain _ _ m hm) pre hpre
  have hs := setSources_all _ _ w ht (srcsOf m.evs)
  refine ⟨.mk m.name m.isWarp ((srcsOf m.evs).map fun s => some (slot w s.kind)), ?_, ⟨rfl, rfl, by simp [Gen.srcs], ?_⟩, .mk _ _ _ (by simp) ?_⟩
  · rw [build, hs]; rfl
  · intro i s c hs hc hk
    simp only [Gen.srcs, List.getElem?_map, hs, Option.map_some, Option.some.injEq] at hc
    rw [← hc, hk]; rfl
  · intro s hs
    obtain ⟨t, _, e⟩ := List.mem_map.mp hs
    cases e
    exact complete_slot w _

/-- The shipped nodes are registered in such an order. -/
theorem nodes_warpFirst : WarpFirst nodes := by
  have h : nodes = nodes.take 16 ++ nodes.drop 16 := (List.take_append_drop 16 nodes).symm
  have h2 : ∃ w post, nodes.drop 16 = w :: post ∧ w.isWarp = true ∧ ∀ s ∈ srcsOf w.evs, s.kind = .any :=
    ⟨(nodes.drop 16).head (by decide +kernel), (nodes.drop 16).tail, by simp, by decide +kernel, by decide +kernel⟩
  obtain ⟨w, post, e, hw, pw⟩ := h2
  refine ⟨nodes.take 16, w, post, by rw [← e]; exact h, ?_, hw, pw⟩
  have : ∀ m ∈ nodes.take 16, (∀ s ∈ srcsOf m.evs, s.kind = .any) ∧ m.isWarp = false := by decide +kernel
  exact this

/-- **C65.** For every node of the library the wiki generator makes a complete generator of that class. -/
theorem C65_build_shipped (m : NodeDef) (_ : m ∈ nodes) (depth : Nat) (hd : 2 ≤ depth) : ∃ g, build nodes depth m = some (some g) ∧ Fits m g ∧ Complete g :=
  C65_build nodes nodes_warpFirst m depth hd

example : ∃ m ∈ nodes, ¬ Plain m := by
  refine ⟨nodes[19]'(by decide +kernel), List.getElem_mem _, ?_⟩
  intro h
  have : ¬ ∀ s ∈ srcsOf (nodes[19]'(by decide +kernel)).evs, s.kind = .any := by decide +kernel
  exact this h

theorem tryAll_stuck (b : NodeDef → Option (Option Gen)) (f : NodeDef) (post : List NodeDef) (hf : b f = none)
    (hb : ∀ m, Plain m → b m = none ∨ b m = some (some (.mk m.name m.isWarp ((srcsOf m.evs).map fun _ => some source)))) :
    ∀ pre : List NodeDef, (∀ m ∈ pre, Plain m ∧ m.isWarp = false) → tryAll b .warp (pre ++ f :: post) = none
  | [], _ => by rw [List.nil_append, tryAll, hf]
  | m :: ms, h => by
    have hm := h m (by simp)
    rw [List.cons_append, tryAll]
    rcases hb m hm.1 with e | e
    · rw [e]
    · rw [e]
      simp only [accepts, Gen.isWarp, hm.2, Bool.false_eq_true, if_false]
      exact tryAll_stuck b f post hf hb ms fun x hx => h x (by simp [hx])

theorem setSources_stuck (b : NodeDef → Option (Option Gen)) (all : List NodeDef) (ht : tryAll b .warp all = none) :
    ∀ l : List SrcDef, (∃ s ∈ l, s.kind = .warp) → setSources b all l = none
  | [], h => by simp at h
  | s :: ss, h => by
    rw [setSources]
    cases hk : s.kind with
    | any =>
      have h' : ∃ t ∈ ss, t.kind = .warp := by
        obtain ⟨t, ht, e⟩ := h
        rcases List.mem_cons.mp ht with rfl | ht
        · rw [hk] at e; cases e
        · exact ⟨t, ht, e⟩
      simp [accepts, setSources_stuck b all ht ss h']
    | warp => rw [ht]; simp [accepts, source, Gen.isWarp]

/-- **C65 (the order matters).** If instead a node that needs a domain warp were registered before the first domain warp, `BuildGenerator` would call itself without end on every
node that needs one: no stack is deep enough. -/
theorem C65_order_needed (pre post : List NodeDef) (f : NodeDef) (hpre : ∀ m ∈ pre, Plain m ∧ m.isWarp = false) (hf : ∃ s ∈ srcsOf f.evs, s.kind = .warp)
    (m : NodeDef) (hm : ∃ s ∈ srcsOf m.evs, s.kind = .warp) (depth : Nat) : build (pre ++ f :: post) depth m = none := by
  induction depth generalizing m with
  | zero => rfl
  | succ d ih =>
    rw [build, setSources_stuck _ _ ?_ _ hm, Option.map_none]
    refine tryAll_stuck _ f post (ih f hf) ?_ pre hpre
    intro m hm
    cases d with
    | zero => exact Or.inl rfl
    | succ d => exact Or.inr (build_plain _ d m hm)

/-- Not empty: registering the warp fractal (node 19) before the warps (16-18). -/
example (depth : Nat) : ∃ f, nodes[19]? = some f ∧ build (nodes.take 16 ++ f :: nodes.drop 16) depth f = none := by
  have hf : ∃ s ∈ srcsOf (nodes[19]'(by decide +kernel)).evs, s.kind = .warp := by decide +kernel
  refine ⟨nodes[19]'(by decide +kernel), List.getElem?_eq_getElem _, C65_order_needed _ _ _ ?_ hf _ hf depth⟩
  have : ∀ m ∈ nodes.take 16, (∀ s ∈ srcsOf m.evs, s.kind = .any) ∧ m.isWarp = false := by decide +kernel
  exact this

/-! ## Descriptions -/

/-- The description for the wiki: every line but the last ends with the markup for a line break. -/
def brLines (s : Str) : Str := s.flatMap fun c => if c = '\n' then "<br/>\n".toList else [c]

theorem findNl_none {s : Str} {pos : Nat} (h : findNl s pos = none) : ∀ c ∈ s.drop pos, c ≠ '\n' := by
  unfold findNl at h
  rw [Option.map_eq_none_iff, List.findIdx?_eq_none_iff] at h
  intro c hc e
  simpa [e] using h c hc

theorem brLines_id {s : Str} (h : ∀ c ∈ s, c ≠ '\n') : brLines s = s := by
  induction s with
  | nil => rfl
  | cons c s ih =>
    unfold brLines at *
    rw [List.flatMap_cons, ih fun x hx => h x (by simp [hx]), if_neg (h c (by simp))]
    rfl

theorem brLines_append (a b : Str) : brLines (a ++ b) = brLines a ++ brLines b := by
  unfold brLines; rw [List.flatMap_append]

theorem split_nl : ∀ s : Str, (∀ c ∈ s, c ≠ '\n') ∨ ∃ a b, s = a ++ '\n' :: b ∧ ∀ c ∈ a, c ≠ '\n'
  | [] => Or.inl (by simp)
  | c :: s => by
    by_cases hc : c = '\n'
    · exact Or.inr ⟨[], s, by simp [hc], by simp⟩
    · rcases split_nl s with h | ⟨a, b, e, h⟩
      · left; intro x hx; rcases List.mem_cons.mp hx with rfl | hx
        · exact hc
        · exact h x hx
      · right; refine ⟨c :: a, b, by simp [e], ?_⟩
        intro x hx; rcases List.mem_cons.mp hx with rfl | hx
        · exact hc
        · exact h x hx

theorem findNl_eq (pre a b : Str) (h : ∀ c ∈ a, c ≠ '\n') : findNl (pre ++ (a ++ '\n' :: b)) pre.length = some (pre.length + a.length) := by
  unfold findNl
  rw [List.drop_left, List.findIdx?_append]
  rw [List.findIdx?_eq_none_iff.mpr (by intro x hx; simpa using h x hx)]
  simp [List.findIdx?_cons, Nat.add_comm]

theorem descLoop_eq : ∀ (n : Nat) (pre s : Str), s.length < n → descLoop n pre.length (pre ++ s) = pre ++ brLines s
  | 0, _, _, h => by omega
  | n + 1, pre, s, h => by
    rw [descLoop]
    rcases split_nl s with hs | ⟨a, b, rfl, ha⟩
    · have : findNl (pre ++ s) pre.length = none := by
        unfold findNl
        rw [List.drop_left, Option.map_eq_none_iff, List.findIdx?_eq_none_iff]
        intro x hx; simpa using hs x hx
      rw [this, brLines_id hs]
    · rw [findNl_eq pre a b ha]
      have e1 : (pre ++ (a ++ '\n' :: b)).take (pre.length + a.length) = pre ++ a := by
        rw [← List.append_assoc, ← List.length_append, List.take_left]
      have e2 : (pre ++ (a ++ '\n' :: b)).drop (pre.length + a.length) = '\n' :: b := by
        rw [← List.append_assoc, ← List.length_append, List.drop_left]
      simp only [e1, e2]
      have e3 : pre ++ a ++ br ++ '\n' :: b = (pre ++ a ++ br ++ ['\n']) ++ b := by simp
      have e4 : pre.length + a.length + 6 = (pre ++ a ++ br ++ ['\n']).length := by simp [br]; omega
      rw [e3, e4, descLoop_eq n _ b (by simp at h; omega), brLines_append, brLines_id ha]
      simp [br, brLines]

/-- **C65.** The loop over a description ends, and puts the line break markup at the end of each line and changes nothing else, however often it is allowed to run on. -/
theorem C65_description (s : Str) : formatDescription s = brLines s ∧ ∀ n, descriptionSteps s ≤ n → descLoop n 0 s = brLines s := by
  have h : ∀ n, descriptionSteps s ≤ n → descLoop n 0 s = brLines s := by
    intro n hn
    have := descLoop_eq n [] s (by unfold descriptionSteps at hn; omega)
    simpa using this
  exact ⟨h _ le_rfl, h⟩

theorem brLines_snoc (s : Str) (c : Char) : brLines (s ++ [c]) = brLines s ++ if c = '\n' then "<br/>\n".toList else [c] := by
  rw [brLines_append]; simp [brLines]

/-- **C65.** No two descriptions look the same on the wiki. -/
theorem C65_description_injective (s t : Str) (h : formatDescription s = formatDescription t) : s = t := by
  rw [(C65_description s).1, (C65_description t).1] at h
  have last : ∀ (s : Str) (c : Char), (brLines (s ++ [c])).getLast? = some c := by
    intro s c
    rw [brLines_snoc]
    split
    · next e => rw [e]; simp
    · simp
  induction s using List.reverseRecOn generalizing t with
  | nil =>
    rcases List.eq_nil_or_concat t with rfl | ⟨t, d, rfl⟩
    · rfl
    · have := last t d
      rw [List.concat_eq_append, ] at h
      rw [← h] at this; simp [brLines] at this
  | append_singleton s c ih =>
    rcases List.eq_nil_or_concat t with rfl | ⟨t, d, rfl⟩
    · have := last s c
      rw [h] at this; simp [brLines] at this
    · rw [List.concat_eq_append] at h ⊢
      have e : c = d := by
        have := last s c
        rw [h, last t d] at this
        simpa using this.symm
      subst e
      rw [brLines_snoc, brLines_snoc] at h
      rw [ih t (List.append_cancel_right h)]

example : formatDescription "Fade Min = 100% A\nFade Max = 100% B".toList = "Fade Min = 100% A<br/>\nFade Max = 100% B".toList := by decide +kernel

/-! ## Pages -/

/-- The nodes of a list whose first group is `g`. -/
def ofGroup (g : String) (l : List NodeDef) : List NodeDef := l.filter fun m => (groupsOf m.evs)[0]? = some g

/-- What a set of pages holds: a page for each group that is the first of some node, under it exactly these nodes, in order; one page per group. -/
def PagesOf (s : Streams) (l : List NodeDef) : Prop :=
  (s.map (·.1)).Nodup ∧ (∀ g p, (g, p) ∈ s → p = ofGroup g l ∧ p ≠ []) ∧ ∀ m ∈ l, ∃ g p, (groupsOf m.evs)[0]? = some g ∧ (g, p) ∈ s

theorem addTo_keys (g : String) (m : NodeDef) : ∀ s : Streams, (addTo g m s).map (·.1) = if g ∈ s.map (·.1) then s.map (·.1) else s.map (·.1) ++ [g]
  | [] => by simp [addTo]
  | (h, l) :: r => by
    by_cases e : h = g
    · simp [addTo, e]
    · rw [addTo, if_neg e, List.map_cons, addTo_keys g m r]
      have : g ≠ h := Ne.symm e
      by_cases hg : g ∈ r.map (·.1)
      · rw [if_pos hg, if_pos (by simp [hg])]; rfl
      · rw [if_neg hg, if_neg (by simp only [List.map_cons, List.mem_cons, not_or]; exact ⟨this, hg⟩)]; rfl

theorem addTo_mem (g : String) (m : NodeDef) : ∀ s : Streams, (s.map (·.1)).Nodup → ∀ h p, (h, p) ∈ addTo g m s →
    (h ≠ g ∧ (h, p) ∈ s) ∨ (h = g ∧ ((∃ q, (g, q) ∈ s ∧ p = q ++ [m]) ∨ (g ∉ s.map (·.1) ∧ p = [m])))
  | [], _, h, p, hp => by
    simp only [addTo, List.mem_singleton, Prod.mk.injEq] at hp
    exact Or.inr ⟨hp.1, Or.inr ⟨by simp, hp.2⟩⟩
  | (k, l) :: r, nd, h, p, hp => by
    have nd' : k ∉ r.map (·.1) ∧ (r.map (·.1)).Nodup := by simpa using nd
    by_cases e : k = g
    · subst e
      rw [addTo, if_pos rfl] at hp
      rcases List.mem_cons.mp hp with hp | hp
      · obtain ⟨rfl, rfl⟩ := Prod.mk.inj hp
        exact Or.inr ⟨rfl, Or.inl ⟨l, by simp, rfl⟩⟩
      · left
        refine ⟨?_, by simp [hp]⟩
        intro e
        exact nd'.1 (List.mem_map.mpr ⟨(h, p), hp, e⟩)
    · rw [addTo, if_neg e] at hp
      rcases List.mem_cons.mp hp with hp | hp
      · obtain ⟨rfl, rfl⟩ := Prod.mk.inj hp
        exact Or.inl ⟨e, by simp⟩
      · rcases addTo_mem g m r nd'.2 h p hp with ⟨a, b⟩ | ⟨a, ⟨q, b, c⟩ | ⟨b, c⟩⟩
        · exact Or.inl ⟨a, by simp [b]⟩
        · exact Or.inr ⟨a, Or.inl ⟨q, by simp [b], c⟩⟩
        · refine Or.inr ⟨a, Or.inr ⟨?_, c⟩⟩
          simp only [List.map_cons, List.mem_cons, not_or]
          exact ⟨Ne.symm e, b⟩

theorem pagesFrom_of : ∀ (l done : List NodeDef) (s : Streams), (∀ m ∈ l, groupsOf m.evs ≠ []) → PagesOf s done →
    ∃ s', pagesFrom s l = some s' ∧ PagesOf s' (done ++ l)
  | [], done, s, _, h => ⟨s, rfl, by simpa using h⟩
  | m :: ms, done, s, hg, h => by
    have hm := hg m (by simp)
    obtain ⟨g, hg0⟩ : ∃ g, (groupsOf m.evs)[0]? = some g := by
      cases e : groupsOf m.evs with
      | nil => exact absurd e hm
      | cons a b => exact ⟨a, rfl⟩
    rw [pagesFrom, hg0]
    obtain ⟨h1, h2, h3⟩ := h
    have key : PagesOf (addTo g m s) (done ++ [m]) := by
      refine ⟨?_, ?_, ?_⟩
      · rw [addTo_keys]
        split
        · exact h1
        · next hn => rw [List.nodup_append]; exact ⟨h1, by simp, by intro a ha b hb; rw [List.mem_singleton] at hb; subst hb; intro e; exact hn (e ▸ ha)⟩
      · intro k p hp
        rcases addTo_mem g m s h1 k p hp with ⟨a, b⟩ | ⟨rfl, ⟨q, b, c⟩ | ⟨b, c⟩⟩
        · obtain ⟨c, d⟩ := h2 k p b
          refine ⟨?_, d⟩
          unfold ofGroup at c ⊢
          rw [List.filter_append, ← c]
          simp [hg0, Ne.symm a]
        · obtain ⟨d, -⟩ := h2 k q b
          refine ⟨?_, by rw [c]; simp⟩
          unfold ofGroup at d ⊢
          rw [List.filter_append, ← d, c]
          simp [hg0]
        · refine ⟨?_, by rw [c]; simp⟩
          have : ofGroup k done = [] := by
            unfold ofGroup
            rw [List.filter_eq_nil_iff]
            intro x hx
            simp only [decide_eq_true_eq]
            intro e
            obtain ⟨g', p', e', hp'⟩ := h3 x hx
            rw [e] at e'; cases e'
            exact b (List.mem_map.mpr ⟨_, hp', rfl⟩)
          unfold ofGroup at this ⊢
          rw [List.filter_append, this, c]
          simp [hg0]
      · have keep : ∀ k, k ∈ s.map (·.1) ∨ k = g → ∃ p, (k, p) ∈ addTo g m s := by
          intro k hk
          have : k ∈ (addTo g m s).map (·.1) := by
            rw [addTo_keys]
            split
            · next hin => rcases hk with hk | rfl
                          · exact hk
                          · exact hin
            · rcases hk with hk | rfl
              · simp [hk]
              · simp
          obtain ⟨⟨k', p⟩, hp, rfl⟩ := List.mem_map.mp this
          exact ⟨p, hp⟩
        intro x hx
        rcases List.mem_append.mp hx with hx | hx
        · obtain ⟨g', p', e', hp'⟩ := h3 x hx
          obtain ⟨p, hp⟩ := keep g' (Or.inl (List.mem_map.mpr ⟨_, hp', rfl⟩))
          exact ⟨g', p, e', hp⟩
        · rw [List.mem_singleton] at hx; subst hx
          obtain ⟨p, hp⟩ := keep g (Or.inr rfl)
          exact ⟨g, p, hg0, hp⟩
    obtain ⟨s', e, h'⟩ := pagesFrom_of ms (done ++ [m]) (addTo g m s) (fun x hx => hg x (by simp [hx])) key
    exact ⟨s', e, by simpa using h'⟩

/-- **C65.** Whatever nodes are registered, if each has a group: every node is on the page of its first group, in the order of registration, and on no other page; every page has a node. -/
theorem C65_pages (all : List NodeDef) (h : ∀ m ∈ all, groupsOf m.evs ≠ []) : ∃ s, pages all = some s ∧ PagesOf s all := by
  have := pagesFrom_of all [] [] h ⟨by simp, by simp, by simp⟩
  rw [List.nil_append] at this
  exact this

/-- **C65.** A node without a group would make the program read past the end of an array. -/
theorem C65_group_needed (pre post : List NodeDef) (m : NodeDef) (hpre : ∀ x ∈ pre, groupsOf x.evs ≠ []) (h : groupsOf m.evs = []) : pages (pre ++ m :: post) = none := by
  unfold pages
  generalize ([] : Streams) = s
  induction pre generalizing s with
  | nil => rw [List.nil_append, pagesFrom, h]; rfl
  | cons a pre ih =>
    rw [List.cons_append, pagesFrom]
    cases e : groupsOf a.evs with
    | nil => exact absurd e (hpre a (by simp))
    | cons g gs => exact ih (fun x hx => hpre x (by simp [hx])) _

/-- **C65.** The pages of the library's nodes: every node has a group, so the pages are as in `C65_pages`, and no two pages have the same file name. -/
theorem C65_pages_shipped : ∃ s, pages nodes = some s ∧ PagesOf s nodes ∧ (s.map fun p => pageFile p.1).Nodup := by
  have hg : ∀ m ∈ nodes, groupsOf m.evs ≠ [] := by decide +kernel
  obtain ⟨s, e, h⟩ := C65_pages nodes hg
  refine ⟨s, e, h, ?_⟩
  have : ((pages nodes).map fun s => (s.map fun p => pageFile p.1).Nodup) = some True := by
    have hd : (pages nodes).isSome ∧ ∀ s ∈ pages nodes, (s.map fun p => pageFile p.1).Nodup := by decide +kernel
    rw [e] at hd ⊢
    simpa using hd.2
  rw [e] at this
  simpa using this

example : (pages nodes).map (fun s => s.map fun p => p.1) = some ["Basic Generators", "Coherent Noise", "Fractal", "Modifiers", "Domain Warp", "Operators", "Blends", "Domain Modifiers"] := by
  decide +kernel

/-- **C65.** No two nodes of the library have the same section title, so no two have the same picture file. -/
theorem C65_titles_distinct : (nodes.map title).Nodup := by decide +kernel

/-- **C65.** The section of every node of the library is written without reading past an array. -/
theorem C65_headings_defined : ∀ m ∈ nodes, (headings m).isSome := by decide +kernel

/-- **C65 (partial).** The headings of a node without hybrid inputs for each dimension are distinct.  Missing: see `C65_same_headings`. -/
theorem C65_headings_distinct_partial : ∀ m ∈ nodes, (∀ h ∈ hybsOf m.evs, h.dim = none) → ∀ l ∈ headings m, (l.map Heading.name).Nodup := by decide +kernel

/-- **C65 (violated).** Gradient, DistanceToPoint and DomainOffset get four headings with the same name, one for each dimension: the wiki does not say which is which. -/
theorem C65_same_headings : ∀ i ∈ [(4, "Offset"), (5, "Point"), (34, "Offset")], ∃ m l, nodes[i.1]? = some m ∧ headings m = some l ∧
    (l.map Heading.name).count i.2.toList = 4 := by
  have h : ∀ i ∈ [(4, "Offset"), (5, "Point"), (34, "Offset")], (nodes[i.1]?.bind headings).map (fun l => (l.map Heading.name).count i.2.toList) = some 4 := by decide +kernel
  intro i hi
  have := h i hi
  cases hm : nodes[i.1]? with
  | none => rw [hm] at this; cases this
  | some m =>
    rw [hm] at this
    simp only [Option.bind_some] at this
    cases hl : headings m with
    | none => rw [hl] at this; cases this
    | some l => rw [hl] at this; exact ⟨m, l, rfl, hl, by simpa using this⟩

/-! ## Pictures -/

noncomputable section

/-- **C65.** The grey levels of a picture: between 0 and 255, the lowest sample black, brighter samples never darker. -/
theorem C65_pixel (mn mx : ℝ) (hn : F32.Rep mn) (hx : F32.Rep mx) (h : mn < mx) :
    (∀ v, 0 ≤ pixel mn mx v ∧ pixel mn mx v ≤ 255) ∧ pixel mn mx mn = 0 ∧ ∀ v w, v ≤ w → pixel mn mx v ≤ pixel mn mx w := by
  have hs : 0 ≤ F32.div 255 (F32.sub mx mn) := F32.le_fl F32.rep_zero (div_nonneg (by norm_num) (F32.sub_pos' hx hn h).le)
  refine ⟨fun v => ⟨?_, ?_⟩, ?_, ?_⟩
  · exact Int.floor_nonneg.mpr (le_max_left _ _)
  · have : max 0 (min (F32.mul (F32.sub v mn) (F32.div 255 (F32.sub mx mn))) 255) ≤ 255 := max_le (by norm_num) (min_le_right _ _)
    have h2 := Int.floor_mono this
    have e : ⌊(255 : ℝ)⌋ = 255 := by norm_num
    rw [e] at h2
    exact h2
  · simp [pixel, F32.sub_self', F32.mul, F32.fl_zero]
  · intro v w hvw
    refine Int.floor_mono (max_le_max le_rfl (min_le_min (F32.fl_mono ?_) le_rfl))
    exact mul_le_mul_of_nonneg_right (F32.fl_mono (by linarith)) hs

/-- Three operations with relative error `e` each. -/
theorem pixel_real {w d u q t e : ℝ} (e0 : 0 < e) (e1 : e ≤ 1 / 10 ^ 7) (hw : 0 < w) (hp : 0 < d) (t0 : 0 ≤ t) (t1 : t ≤ 1) (r1 : |d - w| ≤ w * e)
    (r2 : |u - t * w| ≤ t * w * e) (r3 : |q - 255 / d| ≤ 255 / d * e) : 0 ≤ u * q ∧ t * 254.9998 ≤ u * q ∧ u * q ≤ t * 255.0002 := by
  obtain ⟨d1, d2⟩ := abs_le.mp r1
  obtain ⟨u1, u2⟩ := abs_le.mp r2
  obtain ⟨q1, q2⟩ := abs_le.mp r3
  have tw : 0 ≤ t * w := mul_nonneg t0 hw.le
  have ee : (0 : ℝ) ≤ 1 - e := by norm_num at e1; linarith
  have u1' : t * w * (1 - e) ≤ u := by linarith
  have u2' : u ≤ t * w * (1 + e) := by linarith
  have u0 : 0 ≤ u := le_trans (mul_nonneg tw ee) u1'
  have q1' : 255 / d * (1 - e) ≤ q := by linarith
  have q2' : q ≤ 255 / d * (1 + e) := by linarith
  have q0 : 0 ≤ q := le_trans (mul_nonneg (by positivity) ee) q1'
  have qd1 : 255 * (1 - e) ≤ q * d := by
    calc 255 * (1 - e) = 255 / d * (1 - e) * d := by field_simp
      _ ≤ q * d := by gcongr
  have qd2 : q * d ≤ 255 * (1 + e) := by
    calc q * d ≤ 255 / d * (1 + e) * d := by gcongr
      _ = 255 * (1 + e) := by field_simp
  have qw1 : 255 * (1 - e) ≤ q * w * (1 + e) := by
    have : q * d ≤ q * (w * (1 + e)) := mul_le_mul_of_nonneg_left (by linarith) q0
    linarith
  have qw2 : q * w * (1 - e) ≤ 255 * (1 + e) := by
    have : q * (w * (1 - e)) ≤ q * d := mul_le_mul_of_nonneg_left (by linarith) q0
    linarith
  have qw0 : 0 ≤ q * w := mul_nonneg q0 hw.le
  clear q1 q2 q1' q2' d1 d2 u1 u2 qd1 qd2 r1 r2 r3
  set y := q * w with hy
  have B0 : y ≤ 256 := by
    by_contra hc; push Not at hc
    have : 256 * (1 - e) ≤ y * (1 - e) := mul_le_mul_of_nonneg_right hc.le ee
    norm_num at e1; linarith
  have B1 : y ≤ 255.0001 := by
    have : y * e ≤ 256 * e := mul_le_mul_of_nonneg_right B0 e0.le
    norm_num at e1 ⊢; linarith
  have B2 : 254.9999 ≤ y := by
    have : y * e ≤ 256 * e := mul_le_mul_of_nonneg_right B0 e0.le
    norm_num at e1 ⊢; linarith
  have ye : y * e ≤ 256 * e := mul_le_mul_of_nonneg_right B0 e0.le
  refine ⟨mul_nonneg u0 q0, ?_, ?_⟩
  · have h1 : t * w * (1 - e) * q ≤ u * q := mul_le_mul_of_nonneg_right u1' q0
    have h3 : t * w * (1 - e) * q = t * (y * (1 - e)) := by rw [hy]; ring
    have h4 : (254.9998 : ℝ) ≤ y * (1 - e) := by norm_num at e1 B2 ⊢; linarith
    have h5 := mul_le_mul_of_nonneg_left h4 t0
    linarith
  · have h1 : u * q ≤ t * w * (1 + e) * q := mul_le_mul_of_nonneg_right u2' q0
    have h3 : t * w * (1 + e) * q = t * (y * (1 + e)) := by rw [hy]; ring
    have h4 : y * (1 + e) ≤ (255.0002 : ℝ) := by norm_num at e1 B1 ⊢; linarith
    have h5 := mul_le_mul_of_nonneg_left h4 t0
    linarith

/-- **C65.** A sample's grey is the position of the sample between the lowest and the highest one, times 255, rounded down, up to the rounding of the float operations. -/
theorem C65_pixel_value (mn mx v : ℝ) (hn : F32.Rep mn) (hx : F32.Rep mx) (hv : F32.Rep v) (h : mn < mx) (h1 : mn ≤ v) (h2 : v ≤ mx) (hr : mx - mn ≤ 2 ^ 127) :
    (v - mn) / (mx - mn) * 255 - 1.001 < pixel mn mx v ∧ (pixel mn mx v : ℝ) ≤ (v - mn) / (mx - mn) * 255 + 0.001 := by
  have hd : 0 < mx - mn := by linarith
  have hp := F32.sub_pos' hx hn h
  have hr' : F32.sub mx mn ≤ 2 ^ 127 := F32.fl_le (by have := F32.rep_pow (e := 127) (by norm_num); exact_mod_cast this) hr
  have r1 := F32.sub_rel hx hn
  have r2 := F32.sub_rel hv hn
  have r3 : |F32.div 255 (F32.sub mx mn) - 255 / F32.sub mx mn| ≤ |255 / F32.sub mx mn| / 2 ^ 24 := by
    refine F32.fl_rel ?_
    rw [abs_of_pos (by positivity), le_div_iff₀ hp]
    calc (2 : ℝ) ^ (-126 : ℤ) * F32.sub mx mn ≤ 2 ^ (-126 : ℤ) * 2 ^ 127 := by gcongr
      _ ≤ 255 := by norm_num
  unfold pixel
  simp only
  generalize F32.div 255 (F32.sub mx mn) = q at *
  generalize F32.sub mx mn = d at *
  generalize F32.sub v mn = u at *
  rw [abs_of_pos hd] at r1
  rw [abs_of_nonneg (by linarith : (0 : ℝ) ≤ v - mn)] at r2
  rw [abs_of_pos (by positivity : (0 : ℝ) < 255 / d)] at r3
  have t0 : 0 ≤ (v - mn) / (mx - mn) := div_nonneg (by linarith) hd.le
  have t1 : (v - mn) / (mx - mn) ≤ 1 := by rw [div_le_one hd]; linarith
  have ev : (v - mn) / (mx - mn) * (mx - mn) = v - mn := by field_simp
  obtain ⟨p0, p1, p2⟩ := pixel_real (w := mx - mn) (d := d) (u := u) (q := q) (t := (v - mn) / (mx - mn)) (e := 1 / 2 ^ 24) (by positivity) (by norm_num) hd hp t0 t1
    (by rw [mul_one_div]; exact r1) (by rw [ev, mul_one_div]; exact r2) (by rw [mul_one_div]; exact r3)
  generalize (v - mn) / (mx - mn) = t at *
  unfold F32.mul
  have hb : |u * q| ≤ 2 ^ (8 : ℤ) := by rw [abs_of_nonneg p0]; norm_num at p2 ⊢; linarith
  obtain ⟨f1, f2⟩ := abs_le.mp (F32.fl_err_le (by norm_num) hb)
  norm_num at f1 f2 p1 p2
  have fl1 := Int.lt_floor_add_one (max 0 (min (F32.fl (u * q)) 255))
  have fl2 := Int.floor_le (max 0 (min (F32.fl (u * q)) 255))
  have m1 : t * 255 - 0.001 < max 0 (min (F32.fl (u * q)) 255) := by
    refine lt_max_of_lt_right (lt_min ?_ ?_)
    · norm_num; linarith
    · norm_num; linarith
  have m2 : max 0 (min (F32.fl (u * q)) 255) ≤ t * 255 + 0.001 := by
    refine max_le ?_ (le_trans (min_le_left _ _) ?_)
    · norm_num; linarith
    · norm_num; linarith
  generalize max 0 (min (F32.fl (u * q)) 255) = X at *
  constructor
  · norm_num at m1 ⊢; linarith
  · norm_num at m2 ⊢; linarith

/-- Not empty: a sample in the middle. -/
example : pixel (-1) 1 0 = 127 := by
  have h := C65_pixel_value (-1) 1 0 (F32.rep_neg F32.rep_one) F32.rep_one F32.rep_zero (by norm_num) (by norm_num) (by norm_num) (by norm_num)
  norm_num at h
  have h1 : (126 : ℝ) < pixel (-1) 1 0 := by linarith
  have h2 : (pixel (-1) 1 0 : ℝ) < 128 := by linarith
  have : (126 : ℤ) < pixel (-1) 1 0 := by exact_mod_cast h1
  have : pixel (-1) 1 0 < 128 := by exact_mod_cast h2
  omega

/-- **C65.** The highest sample is white or one level darker (`C65_pixel_top_dark`). -/
theorem C65_pixel_top (mn mx : ℝ) (hn : F32.Rep mn) (hx : F32.Rep mx) (h : mn < mx) (hr : mx - mn ≤ 2 ^ 127) : pixel mn mx mx = 254 ∨ pixel mn mx mx = 255 := by
  have h1 := (C65_pixel_value mn mx mx hn hx hx h h.le le_rfl hr).1
  rw [div_self (by linarith : mx - mn ≠ 0)] at h1
  norm_num at h1
  have h2 := ((C65_pixel mn mx hn hx h).1 mx).2
  have : (253 : ℝ) < pixel mn mx mx := by linarith
  have : (253 : ℤ) < pixel mn mx mx := by exact_mod_cast this
  omega

/-- **C65.** The picture is a correct BMP image whose pixel in column x and row y (from below) is the grey of sample `x + w y`; in the program `w = h = 256`. -/
theorem C65_picture (w h : Nat) (hw : 0 < w) (hw' : w < 65536) (hh : h < 65536) (hs : 794 + (w + 3) * h < 2 ^ 32) (mn mx : ℝ) (hn : F32.Rep mn) (hx : F32.Rep mx) (hlt : mn < mx)
    (noise : List ℝ) (hl : noise.length = w * h) :
    ∃ img, Texture.decodeBmp (picture w h mn mx noise) = some img ∧ img.width = w ∧ img.height = h ∧
      ∀ x y v, x < w → y < h → noise[x + w * y]? = some v → ∃ c : UInt8, (c.toNat : ℤ) = pixel mn mx v ∧ img.colour x y = some (c, c, c) := by
  obtain ⟨img, h1, h2, h3, h4⟩ := Texture.bmp_decode hw hw' hh hs (noise.map fun v => UInt32.ofInt (pixel mn mx v)) (by simpa using hl)
  refine ⟨img, h1, h2, h3, ?_⟩
  intro x y v hx' hy hv
  obtain ⟨p0, p1⟩ := (C65_pixel mn mx hn hx hlt).1 v
  have e := h4 x y (UInt32.ofInt (pixel mn mx v)) hx' hy (by
    rw [List.getElem?_map, show y * w + x = x + w * y by ring, hv]; rfl)
  refine ⟨_, ?_, e⟩
  generalize pixel mn mx v = p at *
  obtain ⟨n, rfl⟩ := Int.eq_ofNat_of_zero_le p0
  have hn : n ≤ 255 := by omega
  interval_cases n <;> rfl

example : ∃ img, Texture.decodeBmp (picture 256 256 (-1) 1 (List.replicate (256 * 256) 0)) = some img ∧ img.width = 256 ∧ ∃ c : UInt8, c.toNat = 127 ∧ img.colour 3 5 = some (c, c, c) := by
  obtain ⟨img, h1, h2, -, h4⟩ := C65_picture 256 256 (by norm_num) (by norm_num) (by norm_num) (by norm_num) (-1) 1 (F32.rep_neg F32.rep_one) F32.rep_one (by norm_num)
    (List.replicate (256 * 256) 0) (by rw [List.length_replicate])
  obtain ⟨c, hc, hi⟩ := h4 3 5 0 (by norm_num) (by norm_num) (by rw [List.getElem?_replicate, if_pos (by norm_num)])
  have hp : pixel (-1) 1 0 = 127 := by
    have h := C65_pixel_value (-1) 1 0 (F32.rep_neg F32.rep_one) F32.rep_one F32.rep_zero (by norm_num) (by norm_num) (by norm_num) (by norm_num)
    norm_num at h
    have h1 : (126 : ℝ) < pixel (-1) 1 0 := by linarith
    have h2 : (pixel (-1) 1 0 : ℝ) < 128 := by linarith
    have : (126 : ℤ) < pixel (-1) 1 0 := by exact_mod_cast h1
    have : pixel (-1) 1 0 < 128 := by exact_mod_cast h2
    omega
  rw [hp] at hc
  exact ⟨img, h1, h2, c, by exact_mod_cast hc, hi⟩

/-- **C65 (violated).** The highest sample is not always white: when the samples range from 0 to 7 it gets level 254. -/
theorem C65_pixel_top_dark : pixel 0 7 7 = 254 := by
  have r7 : F32.Rep 7 := by have := F32.rep_int (n := 7) (by norm_num); exact_mod_cast this
  have e1 : F32.sub 7 0 = 7 := by unfold F32.sub; rw [sub_zero, F32.fl_rep r7]
  have e2 : F32.div 255 7 = (9549531 : ℤ) * 2 ^ (-18 : ℤ) := by
    unfold F32.div
    exact F32.fl_eq (by norm_num) (by norm_num) (by rw [abs_of_pos (by norm_num)]; norm_num) (by rw [abs_lt]; constructor <;> norm_num)
  have e3 : F32.mul 7 ((9549531 : ℤ) * 2 ^ (-18 : ℤ)) = (16711679 : ℤ) * 2 ^ (-16 : ℤ) := by
    unfold F32.mul
    exact F32.fl_eq (by norm_num) (by norm_num) (by rw [abs_of_pos (by norm_num)]; norm_num) (by rw [abs_lt]; constructor <;> norm_num)
  unfold pixel
  simp only [e1, e2, e3]
  rw [min_eq_left (by norm_num), max_eq_right (by norm_num), Int.floor_eq_iff]
  constructor <;> norm_num

/-! ## Defaults in the text -/

/-- The float defaults a node's section shows. -/
def floatDefaults (m : NodeDef) : List UInt32 := (hybsOf m.evs).map (·.dflt) ++ ((varsOf m.evs).filter (·.type = .float)).map (·.dflt)

theorem default_mem : ∀ m ∈ nodes, ∀ d ∈ floatDefaults m, d ∈ [f0, f01, f05, f1, fm1, f15, f2, f50, f100] := by decide +kernel

theorem printed_tenths {x : ℝ} (n : ℤ) (h : x * 10 = n) : printed x = x := by
  unfold printed
  rw [h, F32.roundEven_int, ← h]; ring

/-- **C65.** One decimal is enough: the number a section shows for a float default, read as a float, is the default. -/
theorem C65_defaults_readable (m : NodeDef) (hm : m ∈ nodes) (d : UInt32) (hd : d ∈ floatDefaults m) : F32.fl (printed (bitsVal d : ℝ)) = bitsVal d := by
  have h := default_mem m hm d hd
  have exact_ : ∀ (x : ℝ) (n k : ℤ), x * 10 = n → x = k * 2 ^ (-1 : ℤ) → |k| ≤ 2 ^ 24 → F32.fl (printed x) = x := by
    intro x n k h1 h2 h3
    rw [printed_tenths n h1, F32.fl_rep ⟨k, -1, h3, by norm_num, h2⟩]
  have v0 : bitsVal f0 = 0 := by decide +kernel
  have v01 : bitsVal f01 = 13421773 / 134217728 := by decide +kernel
  have v05 : bitsVal f05 = 1 / 2 := by decide +kernel
  have v1 : bitsVal f1 = 1 := by decide +kernel
  have vm1 : bitsVal fm1 = -1 := by decide +kernel
  have v15 : bitsVal f15 = 3 / 2 := by decide +kernel
  have v2 : bitsVal f2 = 2 := by decide +kernel
  have v50 : bitsVal f50 = 50 := by decide +kernel
  have v100 : bitsVal f100 = 100 := by decide +kernel
  simp only [List.mem_cons, List.not_mem_nil, or_false] at h
  rcases h with rfl | rfl | rfl | rfl | rfl | rfl | rfl | rfl | rfl
  · rw [v0]; exact exact_ _ 0 0 (by norm_num) (by norm_num) (by norm_num)
  · rw [v01]
    have e : printed (((13421773 / 134217728 : ℚ)) : ℝ) = 1 / 10 := by
      unfold printed
      have : Num.roundEven (((13421773 / 134217728 : ℚ) : ℝ) * 10) = 1 := by
        obtain ⟨h1, h2⟩ := abs_le.mp (F32.roundEven_err (((13421773 / 134217728 : ℚ) : ℝ) * 10))
        generalize Num.roundEven (((13421773 / 134217728 : ℚ) : ℝ) * 10) = k at *
        have h3 : (0 : ℝ) < k := by norm_num at h1; linarith
        have h4 : (k : ℝ) < 2 := by norm_num at h2; linarith
        have : (0 : ℤ) < k := by exact_mod_cast h3
        have : k < 2 := by exact_mod_cast h4
        omega
      rw [this]; norm_num
    rw [e, F32.fl_eq (m := 13421773) (e := -27) (by norm_num) (by norm_num) (by rw [abs_of_pos (by norm_num)]; norm_num) (by rw [abs_lt]; constructor <;> norm_num)]
    norm_num
  · rw [v05]; exact exact_ _ 5 1 (by norm_num) (by norm_num) (by norm_num)
  · rw [v1]; exact exact_ _ 10 2 (by norm_num) (by norm_num) (by norm_num)
  · rw [vm1]; exact exact_ _ (-10) (-2) (by norm_num) (by norm_num) (by norm_num)
  · rw [v15]; exact exact_ _ 15 3 (by norm_num) (by norm_num) (by norm_num)
  · rw [v2]; exact exact_ _ 20 4 (by norm_num) (by norm_num) (by norm_num)
  · rw [v50]; exact exact_ _ 500 100 (by norm_num) (by norm_num) (by norm_num)
  · rw [v100]; exact exact_ _ 1000 200 (by norm_num) (by norm_num) (by norm_num)

example : ∃ m ∈ nodes, f01 ∈ floatDefaults m := by decide +kernel

/-! ## The command that converts a picture -/

/-- Reading a command as a POSIX shell does, as far as double quotes go: `true` while inside quotes (XCU 2.2.3); for text without backslash. -/
def insideQuotes : Str → Bool → Bool
  | [], b => b
  | c :: s, b => insideQuotes s (if c = '"' then !b else b)

theorem insideQuotes_append (s t : Str) (b : Bool) : insideQuotes (s ++ t) b = insideQuotes t (insideQuotes s b) := by
  induction s generalizing b with
  | nil => rfl
  | cons c s ih => exact ih _

theorem insideQuotes_plain (s : Str) (h : '"' ∉ s) (b : Bool) : insideQuotes s b = b := by
  induction s generalizing b with
  | nil => rfl
  | cons c s ih =>
    have : c ≠ '"' := fun e => h (by simp [e])
    rw [insideQuotes, if_neg this]
    exact ih (fun hm => h (by simp [hm])) b

/-- **C65 (violated).** The command given to the shell for a picture never closes its last quote, whatever the names: a POSIX shell rejects it, so the picture the page refers to is not made. -/
theorem C65_command_unterminated (tempFile outDir nodeName : Str) (h1 : '"' ∉ tempFile) (h2 : '"' ∉ outDir) (h3 : '"' ∉ nodeName) :
    insideQuotes (convertCmd tempFile outDir nodeName) false = true := by
  unfold convertCmd
  simp only [insideQuotes_append, insideQuotes_plain _ h1, insideQuotes_plain _ h2, insideQuotes_plain _ h3]
  decide

example : insideQuotes (convertCmd "/tmp/Perlin.bmp".toList ".".toList "Perlin".toList) false = true := by decide

end

end FastNoise.Wiki
