import Verif.MetaVecLemmas
import Verif.CApi

/-! Properties C11 (metadata member lists) and C12 (C API validation). -/
namespace FastNoise.MetaVec
open FastNoise.Registry FastNoise.Ser FastNoise.CApi

/-! ## Specification

A registry is a list of node classes, each a list of registration statements; `groupsOf`, `varsOf`,
`srcsOf`, `hybsOf` (Registry.lean) pick the statements of one kind, in order. -/

/-- Reading all variables of a node through the arrays, with their enum names. -/
def readVars (S : Store) (o : MObj) : Option (List VarDef) := do
  let l ← o.vars.iter S.vars
  l.mapM fun mv => do
    let en ← mv.enumNames.iter S.strs
    pure { name := mv.name, dim := mv.dim, type := mv.type, dflt := mv.dflt, enums := en }

/-- The registry is small enough for 8 bit positions and no node registers enum names between its groups. -/
def Registrable (ns : List NodeDef) : Prop :=
  ns.length ≤ 255 ∧
  (ns.map fun n => (groupsOf n.evs).length + ((varsOf n.evs).map (·.enums.length)).sum).sum ≤ 255 ∧
  (ns.map fun n => (varsOf n.evs).length).sum ≤ 255 ∧
  (ns.map fun n => (srcsOf n.evs).length).sum ≤ 255 ∧
  (ns.map fun n => (hybsOf n.evs).length).sum ≤ 255 ∧
  ∀ n ∈ ns, ∀ p g m h q v, n.evs = p ++ .group g :: m ++ .group h :: q → Ev.var v ∈ m → v.enums = []

theorem strsOf_length (evs : List Ev) :
    (strsOf evs).length = (groupsOf evs).length + ((varsOf evs).map (·.enums.length)).sum := by
  induction evs with
  | nil => rfl
  | cons e es ih =>
    rw [show e :: es = [e] ++ es from rfl, strsOf_append, groupsOf_append, varsOf_append]
    simp only [List.length_append, List.map_append, List.sum_append, ih]
    cases e <;> simp [strsOf, groupsOf, varsOf] <;> omega

theorem fits_of {ns : List NodeDef} (h : Registrable ns) : Fits ns := by
  obtain ⟨h0, h1, h2, h3, h4, h5⟩ := h
  refine ⟨h0, ?_, ?_, ?_, ?_, h5⟩
  · rw [List.length_flatMap]; simp only [strsOf_length]; exact h1
  · rw [List.length_flatMap]; exact h2
  · rw [List.length_flatMap]; exact h3
  · rw [List.length_flatMap]; exact h4

theorem readVars_eq {S : Store} {o : MObj} {evs : List Ev} (h : Good S o evs) : readVars S o = some (varsOf evs) := by
  obtain ⟨l, h1, h2⟩ := h.vars
  simp only [readVars, h1.iter, Option.bind_eq_bind, Option.bind_some]
  revert h2
  generalize varsOf evs = vs
  intro h2
  clear h1
  induction h2 with
  | nil => rfl
  | cons a _ ih =>
    rename_i mv v _ _ _
    rw [List.mapM_cons, ih]
    obtain ⟨a1, a2, a3, a4, a5⟩ := a
    simp [a5.iter, a1, a2, a3, a4]

theorem getFromId_eq {S : Store} {ns : List NodeDef} (h : Inv S ns) :
    (∀ (i : Nat) n, ns[i]? = some n → ∃ o, S.objs[i]? = some o ∧ getFromId S i = some (some o)) ∧
    (∀ i, ns.length ≤ i → getFromId S i = some none) := by
  have hs := h.allOpen.holds.size
  simp only [List.length_range] at hs
  constructor
  · intro i n hn
    have hi := (List.getElem?_eq_some_iff.mp hn).1
    have ho := List.getElem?_eq_getElem (show i < S.objs.length by rw [h.objLen]; exact hi)
    refine ⟨_, ho, ?_⟩
    simp only [getFromId, hs, hi, if_true]
    rw [h.allOpen.holds.at (by simpa using hi), List.getElem?_range hi]
    simp [ho]
  · intro i hi
    simp only [getFromId, hs]
    rw [if_neg (by omega)]

/-! ## C11 -/

/-- **C11** For every registry within the limits: the global id list is `0, 1, ..`, and the metadata object of
every node lists exactly the groups, variables (with exactly their enum names), sources and hybrids which
that node registered, in that order. -/
theorem C11_lists_exact (ns : List NodeDef) (h : Registrable ns) :
    let S := regAll ns {}
    S.allV.iter S.all = some (List.range ns.length) ∧
    ∀ (i : Nat) n, ns[i]? = some n → ∃ o, getFromId S i = some (some o) ∧ o.id = i ∧ o.name = n.name ∧
      o.groups.iter S.strs = some (groupsOf n.evs) ∧ readVars S o = some (varsOf n.evs) ∧
      o.srcs.iter S.srcs = some (srcsOf n.evs) ∧ o.hybs.iter S.hybs = some (hybsOf n.evs) := by
  intro S
  have hI := inv_regAll (fits_of h)
  refine ⟨hI.allOpen.holds.iter, ?_⟩
  intro i n hn
  obtain ⟨o, ho, hg⟩ := (getFromId_eq hI).1 i n hn
  obtain ⟨g, g1, g2⟩ := hI.good i n o hn ho
  exact ⟨o, hg, g1, g2, g.groups.iter, readVars_eq g, g.srcs.iter, g.hybs.iter⟩

/-- A checkable form of "no enum names between two groups". -/
def togetherB : Nat → List Ev → Bool
  | _, [] => true
  | 0, .group _ :: es => togetherB 1 es
  | 0, _ :: es => togetherB 0 es
  | 1, .var v :: es => if v.enums = [] then togetherB 1 es else togetherB 2 es
  | 1, _ :: es => togetherB 1 es
  | _ + 2, .group _ :: _ => false
  | _ + 2, _ :: es => togetherB 2 es

theorem together2 : ∀ (es : List Ev), togetherB 2 es = true → ∀ g, Ev.group g ∉ es := by
  intro es
  induction es with
  | nil => simp
  | cons e es ih => cases e <;> simp [togetherB] <;> exact fun h g => ih h g

theorem together1 : ∀ (es : List Ev), togetherB 1 es = true → ∀ m h q v, es = m ++ .group h :: q → Ev.var v ∈ m →
    v.enums = [] := by
  intro es
  induction es with
  | nil => intro _ m h q v e _; simp at e
  | cons e es ih =>
    intro hb m h q v he hv
    cases m with
    | nil => simp at hv
    | cons e' m =>
      simp only [List.cons_append, List.cons.injEq] at he
      obtain ⟨rfl, he⟩ := he
      cases e with
      | var w =>
        simp only [togetherB] at hb
        by_cases hw : w.enums = []
        · rw [if_pos hw] at hb
          rcases List.mem_cons.mp hv with e | e
          · cases e; exact hw
          · exact ih hb m h q v he e
        · rw [if_neg hw] at hb
          exact absurd (by rw [he]; simp) (together2 es hb h)
      | group w => simp at hv; exact ih (by simpa [togetherB] using hb) m h q v he hv
      | src w => simp at hv; exact ih (by simpa [togetherB] using hb) m h q v he hv
      | hyb w => simp at hv; exact ih (by simpa [togetherB] using hb) m h q v he hv

theorem together0 : ∀ (es : List Ev), togetherB 0 es = true → Together es := by
  intro es
  induction es with
  | nil => intro _ p g m h q v e _; simp at e
  | cons e es ih =>
    intro hb p g m h q v he hv
    cases p with
    | nil =>
      simp only [List.nil_append, List.cons_append, List.cons.injEq] at he
      obtain ⟨rfl, he⟩ := he
      exact together1 es (by simpa [togetherB] using hb) m h q v he hv
    | cons e' p =>
      simp only [List.cons_append, List.cons.injEq] at he
      obtain ⟨rfl, he⟩ := he
      cases e with
      | group w =>
        simp only [togetherB] at hb
        exact together1 es hb (p ++ .group g :: m) h q v (by rw [he]) (by simp [hv])
      | var w => exact ih (by simpa [togetherB] using hb) p g m h q v he hv
      | src w => exact ih (by simpa [togetherB] using hb) p g m h q v he hv
      | hyb w => exact ih (by simpa [togetherB] using hb) p g m h q v he hv

/-- **C11** The shipped registry is within the limits, so all of the above holds of it. -/
theorem C11_shipped : Registrable Registry.nodes := by
  refine ⟨by decide +kernel, by decide +kernel, by decide +kernel, by decide +kernel, by decide +kernel, ?_⟩
  have : ∀ n ∈ Registry.nodes, togetherB 0 n.evs = true := by decide +kernel
  exact fun n hn => together0 n.evs (this n hn)

/-- The array sizes reserved in Metadata.cpp:23-31 (47 nodes, 93 strings, 93 variables, 32 sources,
59 hybrids) are exactly what the shipped nodes register. -/
theorem C11_reserved_sizes :
    let S := regAll Registry.nodes {}
    S.all.length = 47 ∧ S.strs.length = 93 ∧ S.vars.length = 93 ∧ S.srcs.length = 32 ∧ S.hybs.length = 59 := by
  have h := inv_regAll (fits_of C11_shipped)
  refine ⟨by rw [h.allEq]; decide +kernel, by rw [h.strs]; decide +kernel, by rw [h.vars]; decide +kernel,
    by rw [h.srcs]; decide +kernel, by rw [h.hybs]; decide +kernel⟩

/-- The members with a given name are either one member without dimension or the four members X, Y, Z, W. -/
def OneOrPerDim (ms : List (String × Option Nat)) : Prop :=
  ∀ m ∈ ms, (ms.filter fun k => k.1 = m.1).map (·.2) = [none] ∨
    (ms.filter fun k => k.1 = m.1).map (·.2) = [some 0, some 1, some 2, some 3]

instance (ms : List (String × Option Nat)) : Decidable (OneOrPerDim ms) := by unfold OneOrPerDim; infer_instance

/-- **C11** The shipped registry names its members unambiguously: no two nodes share a name; within a node, a
name belongs to one plain variable or hybrid, or to its four per-dimension members in the order X, Y, Z, W;
source names are distinct; each node is in at least one group and in no group twice; an enum has a name for
its default and names are used by nothing else. -/
theorem C11_members_unambiguous :
    (Registry.nodes.map (·.name)).Nodup ∧
    ∀ n ∈ Registry.nodes,
      OneOrPerDim ((varsOf n.evs).map fun v => (v.name, v.dim)) ∧
      OneOrPerDim ((hybsOf n.evs).map fun v => (v.name, v.dim)) ∧
      ((srcsOf n.evs).map (·.name)).Nodup ∧
      groupsOf n.evs ≠ [] ∧ (groupsOf n.evs).Nodup ∧
      ∀ v ∈ varsOf n.evs, (v.type = .enum → v.dflt.toNat < v.enums.length ∧ v.enums.Nodup) ∧
        (v.type ≠ .enum → v.enums = []) := by
  decide +kernel

/-- Non-vacuity: node 12 (CellularLookup) of the shipped registry. -/
example : (regAll Registry.nodes {}).objs.length = 47 := (inv_regAll (fits_of C11_shipped)).objLen.trans (by decide)

/-- The limit is sharp: the 256th element of an array wraps its list into an unusable one. -/
theorem C11_limit : (Vec.push (List.replicate 255 0) {} 1).2.iter (Vec.push (List.replicate 255 0) {} 1).1 = none := by
  decide +kernel

/-- Without the grouping condition groups would pick up enum names. -/
theorem C11_groups_must_be_together :
    (let r := runEvs {} { id := 0 } [.group "A", .var { name := "v", type := .enum, dflt := 0, enums := ["x"] }, .group "B"]
     r.2.groups.iter r.1.strs) = some ["A", "x", "B"] := by decide +kernel

/-! ## C12 -/

/-- An `int` argument. -/
def IsInt (i : Int) : Prop := -2147483648 ≤ i ∧ i < 2147483648

/-- `id` is no id of the registry, and stays none when cut to 8 bits. -/
def NoSuchId (ns : List NodeDef) (id : Int) : Prop := (ns.length : Int) ≤ id % 256

/-- What a function of an id must return. -/
def IdSpec {R : Type} (ns : List NodeDef) (id : Int) (value : NodeDef → R) (badId : R) (r : Option R) : Prop :=
  (∀ n, 0 ≤ id → ns[id.toNat]? = some n → r = some (value n)) ∧ (NoSuchId ns id → r = some badId)

/-- What a function of an id and a member index must return. -/
def IndexSpec {β R : Type} (ns : List NodeDef) (id i : Int) (members : NodeDef → List β) (value : β → R) (badIndex badId : R)
    (r : Option R) : Prop :=
  (∀ n, 0 ≤ id → ns[id.toNat]? = some n →
    (∀ m, 0 ≤ i → (members n)[i.toNat]? = some m → r = some (value m)) ∧
    (i < 0 ∨ (members n).length ≤ i → r = some badIndex)) ∧
  (NoSuchId ns id → r = some badId)

theorem metaOf_eq {ns : List NodeDef} {S : Store} (hI : Inv S ns) (hl : ns.length ≤ 255) (id : Int) :
    (∀ n, 0 ≤ id → ns[id.toNat]? = some n → ∃ o, S.objs[id.toNat]? = some o ∧ metaOf S id = some (some o)) ∧
    (NoSuchId ns id → metaOf S id = some none) := by
  constructor
  · intro n h0 hn
    have hi := (List.getElem?_eq_some_iff.mp hn).1
    obtain ⟨o, h1, h2⟩ := (getFromId_eq hI).1 _ n hn
    refine ⟨o, h1, ?_⟩
    rw [metaOf, show id % 256 = id by omega]
    exact h2
  · intro h
    have : (0:Int) ≤ id % 256 := Int.emod_nonneg _ (by decide)
    exact (getFromId_eq hI).2 _ (by simp only [NoSuchId] at h; omega)

theorem idSpec_byId {R : Type} {ns : List NodeDef} (h : Registrable ns) (id : Int) {value : NodeDef → R} {badId : R}
    {f : MObj → R} (hv : ∀ n o, Good (regAll ns {}) o n.evs → o.name = n.name → f o = value n) :
    IdSpec ns id value badId (byId (regAll ns {}) id badId f) := by
  have hI := inv_regAll (fits_of h)
  obtain ⟨m1, m2⟩ := metaOf_eq hI h.1 id
  constructor
  · intro n h0 hn
    obtain ⟨o, ho, hm⟩ := m1 n h0 hn
    obtain ⟨g, _, g2⟩ := hI.good _ n o hn ho
    simp only [byId, hm, hv n o g g2]
  · intro hb
    simp only [byId, m2 hb]

theorem toSizeT_nonneg {i : Int} (h : IsInt i) (h0 : 0 ≤ i) : toSizeT i = i.toNat := by
  simp only [IsInt, toSizeT] at *; omega
theorem toSizeT_neg {i : Int} (h : IsInt i) (h0 : i < 0) : 2 ^ 63 ≤ toSizeT i := by
  simp only [IsInt, toSizeT] at *; omega

theorem Holds.small {T : Type} {st : List T} {v : Vec} {l : List T} (h : Holds st v l) (hs : st.length ≤ 255) :
    l.length ≤ 255 := by
  rcases h with ⟨rfl, _⟩ | ⟨pre, post, h1, _⟩
  · simp
  · rw [h1] at hs; simp at hs; omega

theorem indexSpec_byIndex {T β R : Type} {ns : List NodeDef} (h : Registrable ns) (id i : Int) (hi : IsInt i)
    {members : NodeDef → List β} {value : β → R} {badIndex badId : R} {v : MObj → Vec} {st : List T} {f : T → Option R}
    (hst : st.length ≤ 255)
    (hv : ∀ n o, Good (regAll ns {}) o n.evs → ∃ l, Holds st (v o) l ∧ List.Forall₂ (fun m b => f m = some (value b)) l (members n)) :
    IndexSpec ns id i members value badIndex badId (byIndex (regAll ns {}) id i badId badIndex v st f) := by
  have hI := inv_regAll (fits_of h)
  obtain ⟨m1, m2⟩ := metaOf_eq hI h.1 id
  constructor
  · intro n h0 hn
    obtain ⟨o, ho, hm⟩ := m1 n h0 hn
    obtain ⟨g, _, _⟩ := hI.good _ n o hn ho
    obtain ⟨l, hl, hf⟩ := hv n o g
    obtain ⟨hlen, hget⟩ := forall2_get hf
    have hsm := hl.small hst
    simp only [byIndex, hm, hl.size]
    constructor
    · intro m hi0 hm'
      have hlt := (List.getElem?_eq_some_iff.mp hm').1
      rw [toSizeT_nonneg hi hi0, if_pos (by omega), hl.at (by omega)]
      have hle := List.getElem?_eq_getElem (show i.toNat < l.length by omega)
      rw [hle]
      exact hget _ _ _ hle hm'
    · intro hbad
      rw [if_neg]
      rcases Int.lt_or_le i 0 with hn' | hp
      · have := toSizeT_neg hi hn'; omega
      · rw [toSizeT_nonneg hi hp]; omega
  · intro hb
    simp only [byIndex, m2 hb]

theorem forall2_self {α β : Type} {R : α → β → Prop} {g : α → β} (h : ∀ a, R a (g a)) (l : List α) :
    List.Forall₂ R l (l.map g) := by
  induction l with
  | nil => exact .nil
  | cons a l ih => exact .cons (h a) ih

theorem arrays_small {ns : List NodeDef} (h : Registrable ns) :
    (regAll ns {}).strs.length ≤ 255 ∧ (regAll ns {}).vars.length ≤ 255 ∧ (regAll ns {}).srcs.length ≤ 255 ∧
      (regAll ns {}).hybs.length ≤ 255 := by
  have hI := inv_regAll (fits_of h)
  have hf := fits_of h
  exact ⟨by rw [hI.strs]; exact hf.strs, by rw [hI.vars]; exact hf.vars, by rw [hI.srcs]; exact hf.srcs,
    by rw [hI.hybs]; exact hf.hybs⟩

theorem vars_spec {R : Type} {S : Store} {f : MVar → Option R} {value : VarDef → R} {n : NodeDef} {o : MObj} (g : Good S o n.evs)
    (hv : ∀ m b, Matches S.strs m b → f m = some (value b)) :
    ∃ l, Holds S.vars o.vars l ∧ List.Forall₂ (fun m b => f m = some (value b)) l (varsOf n.evs) := by
  obtain ⟨l, h1, h2⟩ := g.vars
  exact ⟨l, h1, forall2_mono (fun a b h => hv a b h) h2⟩

theorem id_spec {T R : Type} {st : List T} {v : Vec} {l : List T} {f : T → Option R} {value : T → R} (h : Holds st v l)
    (hv : ∀ m, f m = some (value m)) : ∃ l', Holds st v l' ∧ List.Forall₂ (fun m b => f m = some (value b)) l' l :=
  ⟨l, h, by simpa using forall2_self (g := fun x => x) (R := fun m b => f m = some (value b)) (fun a => hv a) l⟩

/-- **C12** (partial: ids that are invalid but equal a valid id modulo 256 are accepted, see
`C12_id_aliases`) Every metadata query of the C API returns the registered value for valid arguments and the
documented error value for every other index and every other id; no read leaves the metadata arrays. -/
theorem C12_getters_partial (ns : List NodeDef) (h : Registrable ns) (id i e : Int) (hi : IsInt i) (he : IsInt e) :
    let S := regAll ns {}
    fnGetMetadataCount S = ns.length ∧
    IdSpec ns id (·.name) "INVALID NODE ID" (fnGetMetadataName S id) ∧
    IdSpec ns id (fun n => ((varsOf n.evs).length : Int)) (-1) (fnGetMetadataVariableCount S id) ∧
    IdSpec ns id (fun n => ((srcsOf n.evs).length : Int)) (-1) (fnGetMetadataNodeLookupCount S id) ∧
    IdSpec ns id (fun n => ((hybsOf n.evs).length : Int)) (-1) (fnGetMetadataHybridCount S id) ∧
    IdSpec ns id (fun n => ((groupsOf n.evs).length : Int)) (-1) (fnGetMetadataGroupCount S id) ∧
    IndexSpec ns id i (fun n => varsOf n.evs) (·.name) "INVALID VARIABLE INDEX" "INVALID NODE ID"
      (fnGetMetadataVariableName S id i) ∧
    IndexSpec ns id i (fun n => varsOf n.evs) (fun v => match v.type with | .float => 0 | .int => 1 | .enum => 2) (-1) (-1) (fnGetMetadataVariableType S id i) ∧
    IndexSpec ns id i (fun n => varsOf n.evs) (fun v => match v.dim with | none => -1 | some d => (d : Int)) (-1) (-1)
      (fnGetMetadataVariableDimensionIdx S id i) ∧
    IndexSpec ns id i (fun n => varsOf n.evs) (·.dflt) 0 0 (fnGetMetadataVariableDefault S id i) ∧
    IndexSpec ns id i (fun n => varsOf n.evs) (fun v => (v.enums.length : Int)) (-1) (-1)
      (fnGetMetadataEnumCount S id i) ∧
    IndexSpec ns id i (fun n => varsOf n.evs)
      (fun v => if 0 ≤ e then (v.enums[e.toNat]?).getD "INVALID ENUM INDEX" else "INVALID ENUM INDEX")
      "INVALID VARIABLE INDEX" "INVALID NODE ID" (fnGetMetadataEnumName S id i e) ∧
    IndexSpec ns id i (fun n => srcsOf n.evs) (·.name) "INVALID NODE LOOKUP INDEX" "INVALID NODE ID"
      (fnGetMetadataNodeLookupName S id i) ∧
    IndexSpec ns id i (fun n => hybsOf n.evs) (·.name) "INVALID HYBRID INDEX" "INVALID NODE ID"
      (fnGetMetadataHybridName S id i) ∧
    IndexSpec ns id i (fun n => hybsOf n.evs) (fun v => match v.dim with | none => -1 | some d => (d : Int)) (-1) (-1)
      (fnGetMetadataHybridDimensionIdx S id i) ∧
    IndexSpec ns id i (fun n => hybsOf n.evs) (·.dflt) 0 0 (fnGetMetadataHybridDefault S id i) ∧
    IndexSpec ns id i (fun n => groupsOf n.evs) (fun g => g) "INVALID GROUP INDEX" "INVALID NODE ID"
      (fnGetMetadataGroupName S id i) := by
  intro S
  obtain ⟨a1, a2, a3, a4⟩ := arrays_small h
  have hI := inv_regAll (fits_of h)
  have hs := hI.allOpen.holds.size
  simp only [List.length_range] at hs
  refine ⟨by simp only [fnGetMetadataCount]; exact congrArg Int.ofNat hs, ?_, ?_, ?_, ?_, ?_, ?_, ?_, ?_, ?_, ?_, ?_, ?_, ?_, ?_, ?_, ?_⟩
  · exact idSpec_byId h id (fun n o _ e => e)
  · refine idSpec_byId h id (fun n o g _ => ?_)
    obtain ⟨l, h1, h2⟩ := g.vars
    rw [h1.size, (forall2_get h2).1]
  · exact idSpec_byId h id (fun n o g _ => by rw [g.srcs.size])
  · exact idSpec_byId h id (fun n o g _ => by rw [g.hybs.size])
  · exact idSpec_byId h id (fun n o g _ => by rw [g.groups.size])
  · exact indexSpec_byIndex h id i hi a2 (fun n o g => vars_spec g (fun m b hm => by rw [hm.1]))
  · exact indexSpec_byIndex h id i hi a2 (fun n o g => vars_spec g (fun m b hm => by rw [hm.2.2.1]; cases b.type <;> rfl))
  · exact indexSpec_byIndex h id i hi a2 (fun n o g => vars_spec g (fun m b hm => by rw [hm.2.1]; cases b.dim <;> rfl))
  · exact indexSpec_byIndex h id i hi a2 (fun n o g => vars_spec g (fun m b hm => by rw [hm.2.2.2.1]))
  · exact indexSpec_byIndex h id i hi a2 (fun n o g => vars_spec g (fun m b hm => by rw [hm.2.2.2.2.size]))
  · refine indexSpec_byIndex h id i hi a2 (fun n o g => vars_spec g (fun m b hm => ?_))
    have hh := hm.2.2.2.2
    have hsm := hh.small a1
    rw [hh.size]
    by_cases h0 : 0 ≤ e
    · rw [if_pos h0, toSizeT_nonneg he h0]
      by_cases hlt : e.toNat < b.enums.length
      · rw [if_pos hlt, hh.at hlt, List.getElem?_eq_getElem hlt]; rfl
      · rw [if_neg hlt, List.getElem?_eq_none (by omega)]; rfl
    · have := toSizeT_neg he (by omega)
      rw [if_neg (by omega), if_neg h0]
  · exact indexSpec_byIndex h id i hi a3 (fun n o g => id_spec g.srcs (fun m => rfl))
  · exact indexSpec_byIndex h id i hi a4 (fun n o g => id_spec g.hybs (fun m => rfl))
  · exact indexSpec_byIndex h id i hi a4 (fun n o g => id_spec g.hybs (fun m => by cases m.dim <;> rfl))
  · exact indexSpec_byIndex h id i hi a4 (fun n o g => id_spec g.hybs (fun m => rfl))
  · exact indexSpec_byIndex h id i hi a1 (fun n o g => id_spec g.groups (fun m => rfl))

/-- Non-vacuity: concrete answers for the shipped registry. -/
example : fnGetMetadataVariableName (regAll Registry.nodes {}) 0 0 = some "Value" ∧
    fnGetMetadataEnumName (regAll Registry.nodes {}) 10 4 2 = some "Manhattan" ∧
    fnGetMetadataVariableName (regAll Registry.nodes {}) 0 (-1) = some "INVALID VARIABLE INDEX" ∧
    fnGetMetadataName (regAll Registry.nodes {}) (-1) = some "INVALID NODE ID" := by decide +kernel

/-- **C12** is violated for ids outside 0..255: they are cut to 8 bits, so id 256 is "Constant", not an error. -/
theorem C12_id_aliases : fnGetMetadataName (regAll Registry.nodes {}) 256 = some "Constant" ∧
    fnGetMetadataName (regAll Registry.nodes {}) (-256) = some "Constant" := by decide +kernel

/-- **C12** Setters: a valid index sets exactly that member of the node and reports success; any other index
changes nothing and reports failure; a source is refused exactly if it is null or of the wrong kind. -/
theorem C12_setters (ns : List NodeDef) (h : Registrable ns) (isWarp : Nat → Bool) (n : NodeDef) (c : CNode)
    (hc : ns[c.obj]? = some n) (i : Int) (hi : IsInt i) (v : UInt32) (p : Option Nat) :
    let S := regAll ns {}
    (∀ m, 0 ≤ i → (varsOf n.evs)[i.toNat]? = some m →
      fnSetVariable S c i v = some (true, { c with vars := c.vars.set i.toNat v })) ∧
    (i < 0 ∨ (varsOf n.evs).length ≤ i → fnSetVariable S c i v = some (false, c)) ∧
    (∀ m q, 0 ≤ i → (srcsOf n.evs)[i.toNat]? = some m → p = some q → (m.kind = .warp → isWarp q = true) →
      fnSetNodeLookup S isWarp c i p = some (true, { c with srcs := c.srcs.set i.toNat p })) ∧
    (i < 0 ∨ (srcsOf n.evs).length ≤ i ∨ p = none ∨
        (∃ m q, 0 ≤ i ∧ (srcsOf n.evs)[i.toNat]? = some m ∧ p = some q ∧ m.kind = .warp ∧ isWarp q = false) →
      fnSetNodeLookup S isWarp c i p = some (false, c)) ∧
    (∀ m q, 0 ≤ i → (hybsOf n.evs)[i.toNat]? = some m → p = some q →
      fnSetHybridNodeLookup S c i p = some (true, { c with hybs := c.hybs.modify i.toNat fun x => (p, x.2) })) ∧
    (i < 0 ∨ (hybsOf n.evs).length ≤ i ∨ p = none → fnSetHybridNodeLookup S c i p = some (false, c)) ∧
    (∀ m, 0 ≤ i → (hybsOf n.evs)[i.toNat]? = some m →
      fnSetHybridFloat S c i v = some (true, { c with hybs := c.hybs.set i.toNat (none, v) })) ∧
    (i < 0 ∨ (hybsOf n.evs).length ≤ i → fnSetHybridFloat S c i v = some (false, c)) := by
  intro S
  obtain ⟨a1, a2, a3, a4⟩ := arrays_small h
  have hI := inv_regAll (fits_of h)
  have hlt := (List.getElem?_eq_some_iff.mp hc).1
  obtain ⟨o, ho⟩ : ∃ o, S.objs[c.obj]? = some o :=
    ⟨_, List.getElem?_eq_getElem (show c.obj < S.objs.length by rw [hI.objLen]; exact hlt)⟩
  obtain ⟨g, _, _⟩ : Good S o n.evs ∧ _ ∧ _ := hI.good _ n _ hc ho
  obtain ⟨l, hl, hf⟩ := g.vars
  obtain ⟨hlen, _⟩ := forall2_get hf
  have s1 := hl.small a2
  have s2 := g.srcs.small a3
  have s3 := g.hybs.small a4
  clear a1 a2 a3 a4 hI
  clear_value S
  have key : ∀ k : Nat, k ≤ 255 → (i < 0 ∨ (k : Int) ≤ i) → ¬ toSizeT i < k := by
    intro k hk hb
    rcases Int.lt_or_le i 0 with hn' | hp
    · have := toSizeT_neg hi hn'; omega
    · rw [toSizeT_nonneg hi hp]; omega
  have gl : ∀ (h0 : 0 ≤ i) (hlt : i.toNat < l.length), ∃ x, Vec.at S.vars o.vars i.toNat = some x :=
    fun h0 hlt => ⟨_, (hl.at hlt).trans (List.getElem?_eq_getElem hlt)⟩
  refine ⟨?_, ?_, ?_, ?_, ?_, ?_, ?_, ?_⟩
  · intro m h0 hm
    have hm' := (List.getElem?_eq_some_iff.mp hm).1
    obtain ⟨x, hx⟩ := gl h0 (by omega)
    simp only [fnSetVariable, ho, hl.size, toSizeT_nonneg hi h0]
    rw [if_pos (by omega), hx]
  · intro hb
    simp only [fnSetVariable, ho, hl.size]
    rw [if_neg (key _ s1 (by omega))]
  · intro m q h0 hm hp hk
    have hm' := (List.getElem?_eq_some_iff.mp hm).1
    subst hp
    simp only [fnSetNodeLookup, ho, g.srcs.size, toSizeT_nonneg hi h0, g.srcs.at hm', hm]
    rw [if_pos hm', if_pos]
    cases hkk : m.kind with
    | any => exact Or.inl rfl
    | warp => exact Or.inr (hk hkk)
  · intro hb
    simp only [fnSetNodeLookup, ho, g.srcs.size]
    by_cases hr : i < 0 ∨ ((srcsOf n.evs).length : Int) ≤ i
    · rw [if_neg (key _ s2 (by omega))]
    · have h0 : 0 ≤ i := by omega
      have hm' : i.toNat < (srcsOf n.evs).length := by omega
      simp only [toSizeT_nonneg hi h0, g.srcs.at hm']
      rw [if_pos hm', List.getElem?_eq_getElem hm']
      rcases hb with hb | hb | hb | ⟨m, q, _, hm, rfl, hk, hw⟩
      · exact absurd (Or.inl hb) hr
      · exact absurd (Or.inr hb) hr
      · subst hb; rfl
      · rw [List.getElem?_eq_getElem hm'] at hm
        cases hm
        simp [hk, hw]
  · intro m q h0 hm hp
    have hm' := (List.getElem?_eq_some_iff.mp hm).1
    subst hp
    simp only [fnSetHybridNodeLookup, ho, g.hybs.size, toSizeT_nonneg hi h0, g.hybs.at hm', hm]
    rw [if_pos hm']
  · intro hb
    simp only [fnSetHybridNodeLookup, ho, g.hybs.size]
    by_cases hr : i < 0 ∨ ((hybsOf n.evs).length : Int) ≤ i
    · rw [if_neg (key _ s3 (by omega))]
    · have h0 : 0 ≤ i := by omega
      have hm' : i.toNat < (hybsOf n.evs).length := by omega
      simp only [toSizeT_nonneg hi h0, g.hybs.at hm']
      rw [if_pos hm', List.getElem?_eq_getElem hm']
      rcases hb with hb | hb | hb
      · exact absurd (Or.inl hb) hr
      · exact absurd (Or.inr hb) hr
      · subst hb; rfl
  · intro m h0 hm
    have hm' := (List.getElem?_eq_some_iff.mp hm).1
    simp only [fnSetHybridFloat, ho, g.hybs.size, toSizeT_nonneg hi h0, g.hybs.at hm', hm]
    rw [if_pos hm']
  · intro hb
    simp only [fnSetHybridFloat, ho, g.hybs.size]
    rw [if_neg (key _ s3 (by omega))]

/-- Non-vacuity: a FractalFBm node (id 13) accepts its Octaves variable. -/
example : fnSetVariable (regAll Registry.nodes {}) ⟨13, [3, f2], [none], [(none, f05), (none, f0)]⟩ 0 5 =
    some (true, ⟨13, [5, f2], [none], [(none, f05), (none, f0)]⟩) := by decide +kernel

/-- The header (FastNoise_C.h:512-514) documents that passing NULL to `fnSetHybridNodeLookup` reverts to the
constant; the code refuses null and keeps the source. -/
theorem C12_hybrid_null_does_not_revert :
    fnSetHybridNodeLookup (regAll Registry.nodes {}) ⟨21, [], [none], [(some 7, f1)]⟩ 0 none =
      some (false, ⟨21, [], [none], [(some 7, f1)]⟩) := by decide +kernel

/-- The header (FastNoise_C.h:525-527) documents that a connected node takes priority over the constant set by
`fnSetHybridFloat`; the code disconnects the node. -/
theorem C12_hybrid_float_disconnects :
    fnSetHybridFloat (regAll Registry.nodes {}) ⟨21, [], [none], [(some 7, f1)]⟩ 0 f2 =
      some (true, ⟨21, [], [none], [(none, f2)]⟩) := by decide +kernel

end FastNoise.MetaVec
