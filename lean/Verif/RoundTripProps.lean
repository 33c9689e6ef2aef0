import Verif.RoundTrip3
import Verif.TreeSpec

/-! Properties C03, C04, C05, C09: serialising node-data graphs and decoding the text. -/
namespace FastNoise.RT
open FastNoise.Stream FastNoise.Ser FastNoise.Deser FastNoise.Spec FastNoise.Registry
open Relation

theorem complete_iff {reg : Reg} {A : Arena} {root : Nat} :
    AllWF reg A root ↔ ∀ p, Reach A root p → Complete reg A p := Iff.rfl

/-- Ids are handed out without gaps. -/
theorem Numbered.surj {refs : List (Nat × Nat)} (h : Numbered refs) (hl : refs.length ≤ 65536) :
    ∀ k, k < refs.length → ∃ p ∈ refs.map Prod.fst, refs.lookup p = some k := by
  induction h with
  | nil => intro k hk; simp at hk
  | cons h1 h2 ih =>
    rename_i q refs
    simp only [List.length_cons] at hl
    intro k hk
    simp only [List.length_cons] at hk
    by_cases e : k = refs.length
    · exact ⟨q, by simp, by rw [lookup_cons, if_pos rfl, e, Nat.mod_eq_of_lt (by omega)]⟩
    · obtain ⟨p, hp, hk⟩ := ih (by omega) k (by omega)
      refine ⟨p, by simp only [List.map_cons, List.mem_cons]; exact Or.inr hp, ?_⟩
      rw [lookup_cons, if_neg]
      · exact hk
      · rintro rfl; rw [h2] at hk; simp at hk

theorem expVars_get : ∀ (cs ds vs : List UInt32), cs.length = ds.length → vs.length = ds.length →
    (∀ (i : Nat) v d, vs[i]? = some v → ds[i]? = some d → v = d → cs[i]? = some d) → expVars cs ds vs = vs := by
  intro cs
  induction cs with
  | nil =>
    intro ds vs h1 h2 _
    have : vs = [] := List.length_eq_zero_iff.mp (by simp at h1; omega)
    subst this; rfl
  | cons c cs ih =>
    intro ds vs h1 h2 h
    match ds, vs, h1, h2 with
    | d :: ds, v :: vs, h1, h2 =>
      simp at h1 h2
      simp only [expVars]
      rw [ih ds vs h1 h2 (fun i v d a b e => by simpa using h (i + 1) v d (by simpa using a) (by simpa using b) e)]
      by_cases hv : v = d
      · have := h 0 v d (by simp) (by simp) hv
        simp at this
        simp [hv, this]
      · simp [hv]

theorem zero_of_mod {a : UInt32} (h : a.toNat % 2147483648 = 0) : a = 0 ∨ a = 0x80000000 := by
  have := a.toNat_lt
  rcases (by omega : a.toNat = 0 ∨ a.toNat = 2147483648) with e | e
  · exact Or.inl (UInt32.toNat_inj.mp e)
  · exact Or.inr (UInt32.toNat_inj.mp e)

/-- The bit-level float comparison is IEEE-754 `==`: a NaN is an all-ones exponent with a non-zero mantissa;
otherwise equal bits, or two zeros. -/
theorem C05_float_compare (a b : UInt32) :
    (isNaN32 a = true ↔ a.toNat / 2 ^ 23 % 2 ^ 8 = 255 ∧ a.toNat % 2 ^ 23 ≠ 0) ∧
    (feq a b = true ↔ isNaN32 a = false ∧ isNaN32 b = false ∧ SameFloat a b) := by
  constructor
  · have := a.toNat_lt
    simp only [isNaN32, decide_eq_true_eq, gt_iff_lt]
    omega
  · unfold feq SameFloat
    simp only [Bool.and_eq_true, Bool.or_eq_true, beq_iff_eq, Bool.not_eq_true']
    constructor
    · rintro ⟨⟨h1, h2⟩, h3 | ⟨h3, h4⟩⟩
      · exact ⟨h1, h2, Or.inl h3⟩
      · exact ⟨h1, h2, Or.inr ⟨zero_of_mod h3, zero_of_mod h4⟩⟩
    · rintro ⟨h1, h2, h3 | ⟨h3, h4⟩⟩
      · exact ⟨⟨h1, h2⟩, Or.inl h3⟩
      · refine ⟨⟨h1, h2⟩, Or.inr ⟨?_, ?_⟩⟩
        · rcases h3 with rfl | rfl <;> rfl
        · rcases h4 with rfl | rfl <;> rfl

example : isNaN32 0x7FC00000 = true ∧ isNaN32 0x7F800000 = false ∧ isNaN32 0xFF800001 = true ∧
    feq 0 0x80000000 = true ∧ feq 0x3F800000 0x3F800000 = true ∧ feq 0x7FC00000 0x7FC00000 = false := by decide

theorem same_of_feq {a b : UInt32} (h : feq a b = true) : SameFloat b a := by
  obtain ⟨-, -, h⟩ := (C05_float_compare a b).2.mp h
  rcases h with h | ⟨h1, h2⟩
  · exact Or.inl h.symm
  · exact Or.inr ⟨h2, h1⟩

theorem expHyb_spec (g : Nat → Option Nat) : ∀ (cs : List UInt32) (hs : List (Option Nat × UInt32)),
    hs.length = cs.length → (expHyb g cs cs hs).length = hs.length ∧
    ∀ (i : Nat) h h', hs[i]? = some h → (expHyb g cs cs hs)[i]? = some h' →
      h'.1 = h.1.bind g ∧ (h.1 = none → SameFloat h'.2 h.2) := by
  intro cs
  induction cs with
  | nil =>
    intro hs h
    have : hs = [] := List.length_eq_zero_iff.mp h
    subst this; simp [expHyb]
  | cons c cs ih =>
    intro hs hl
    match hs, hl with
    | (l, v) :: hs, hl =>
      simp at hl
      obtain ⟨h1, h2⟩ := ih hs hl
      cases l with
      | some p =>
        refine ⟨by simp [expHyb, h1], ?_⟩
        intro i h h' a b
        cases i with
        | zero => simp [expHyb] at a b; subst a; subst b; simp
        | succ i => exact h2 i h h' (by simpa using a) (by simpa [expHyb] using b)
      | none =>
        refine ⟨by simp [expHyb, h1], ?_⟩
        intro i h h' a b
        cases i with
        | zero =>
          simp [expHyb] at a b; subst a; subst b
          refine ⟨rfl, fun _ => ?_⟩
          simp only
          split
          · rename_i hf; exact same_of_feq hf
          · exact Or.inl rfl
        | succ i => exact h2 i h h' (by simpa using a) (by simpa [expHyb] using b)

/-! ## C09 -/

/-- **C09** For every acyclic node-data graph (valid pointers; fewer than 2^54 nodes so that the stream
length fits `size_t`), `SerialiseNodeData` terminates without undefined behaviour, leaves the graph
unchanged, and returns non-empty text exactly when every node reached from the root is complete. -/
theorem C09_serialise_total_iff (reg : Reg) (hreg : RegOK reg) (A : Arena) (root : Nat)
    (hp : PointersValid reg A root) (hac : AcyclicFrom A root) (hsz : A.length < 2 ^ 54) :
    ∃ text, serialise reg false A root = .text text A ∧
      (text ≠ [] ↔ ∀ p, Reach A root p → Complete reg A p) := by
  rcases serialise_facts hreg hp hac with ⟨h, e⟩ | ⟨hw, ts, refs, k, h1, _, hk, hn, hg, hrch, h2, h3, h4⟩
  · exact ⟨[], e, by simp only [ne_eq, not_true_eq_false, false_iff]; exact h⟩
  · have hlen : refs.length ≤ A.length := by
      have := nodup_length_le hn.nodup.1 (fun p hp' => by
        obtain ⟨nd, hA, _⟩ := hp p (hrch p hp')
        exact (List.getElem?_eq_some_iff.mp hA).1) (n := A.length)
      simpa using this
    obtain ⟨text, t1, t2, t3, t4⟩ := Base64.C01_roundtrip_iff _ h2 (by omega)
    exact ⟨text, serialise_of_done h1 t1, fun _ => hw, fun _ => t2⟩

/-- Hypotheses met: Add( FractalFBm( Simplex ), same Simplex ), a complete graph with sharing, and the same
with the fractal's source missing, which is incomplete. -/
def exGood : Arena :=
  [⟨some 6, [f100, 7, fm1, f1], [], []⟩, ⟨some 13, [5, f2], [some 0], [(none, f05), (none, f0)]⟩,
   ⟨some 21, [], [some 1], [(some 0, f0)]⟩]
def exBad : Arena :=
  [⟨some 6, [f100, 7, fm1, f1], [], []⟩, ⟨some 13, [5, f2], [none], [(none, f05), (none, f0)]⟩,
   ⟨some 21, [], [some 1], [(some 0, f0)]⟩]

theorem exGood_dec : ∀ p c, LinkND exGood p c → c < p ∧ c < 3 := by
  rintro p c ⟨n, hn, hl⟩
  match p, hn with
  | 0, hn => simp [exGood] at hn; subst hn; simp at hl
  | 1, hn => simp [exGood] at hn; subst hn; simp at hl; omega
  | 2, hn => simp [exGood] at hn; subst hn; simp at hl; omega
  | p + 3, hn => simp [exGood] at hn
theorem exBad_dec : ∀ p c, LinkND exBad p c → c < p ∧ c < 3 := by
  rintro p c ⟨n, hn, hl⟩
  match p, hn with
  | 0, hn => simp [exBad] at hn; subst hn; simp at hl
  | 1, hn => simp [exBad] at hn; subst hn; simp at hl
  | 2, hn => simp [exBad] at hn; subst hn; simp at hl; omega
  | p + 3, hn => simp [exBad] at hn

theorem acyclicFrom_of_dec {A : Arena} {n : Nat} (h : ∀ p c, LinkND A p c → c < p ∧ c < n) (root : Nat) :
    AcyclicFrom A root :=
  fun p _ => by
    have key : ∀ p c, TransGen (LinkND A) p c → c < p := by
      intro p c hpc
      induction hpc with
      | single h1 => exact (h _ _ h1).1
      | tail _ h1 ih => exact Nat.lt_trans (h _ _ h1).1 ih
    exact fun hp => Nat.lt_irrefl _ (key p p hp)
theorem reach_lt {A : Arena} {n : Nat} (h : ∀ p c, LinkND A p c → c < p ∧ c < n) {root : Nat} (hr : root < n)
    (p : Nat) (hp : Reach A root p) : p < n := by
  cases hp with
  | refl => exact hr
  | tail _ hl => exact (h _ _ hl).2

theorem exGood_ptr : PointersValid Registry.reg exGood 2 := by
  intro p hp
  have := reach_lt exGood_dec (by decide) p hp
  have h6 : ∃ m, Registry.reg[6]? = some m := Option.isSome_iff_exists.mp (by decide +kernel)
  have h13 : ∃ m, Registry.reg[13]? = some m := Option.isSome_iff_exists.mp (by decide +kernel)
  have h21 : ∃ m, Registry.reg[21]? = some m := Option.isSome_iff_exists.mp (by decide +kernel)
  match p, this with
  | 0, _ => exact ⟨_, rfl, by rintro id ⟨⟩; exact h6⟩
  | 1, _ => exact ⟨_, rfl, by rintro id ⟨⟩; exact h13⟩
  | 2, _ => exact ⟨_, rfl, by rintro id ⟨⟩; exact h21⟩
theorem exBad_ptr : PointersValid Registry.reg exBad 2 := by
  intro p hp
  have := reach_lt exBad_dec (by decide) p hp
  have h6 : ∃ m, Registry.reg[6]? = some m := Option.isSome_iff_exists.mp (by decide +kernel)
  have h13 : ∃ m, Registry.reg[13]? = some m := Option.isSome_iff_exists.mp (by decide +kernel)
  have h21 : ∃ m, Registry.reg[21]? = some m := Option.isSome_iff_exists.mp (by decide +kernel)
  match p, this with
  | 0, _ => exact ⟨_, rfl, by rintro id ⟨⟩; exact h6⟩
  | 1, _ => exact ⟨_, rfl, by rintro id ⟨⟩; exact h13⟩
  | 2, _ => exact ⟨_, rfl, by rintro id ⟨⟩; exact h21⟩

example : PointersValid Registry.reg exGood 2 ∧ AcyclicFrom exGood 2 ∧ exGood.length < 2 ^ 54 ∧
    PointersValid Registry.reg exBad 2 ∧ AcyclicFrom exBad 2 ∧ exBad.length < 2 ^ 54 :=
  ⟨exGood_ptr, acyclicFrom_of_dec exGood_dec _, by decide, exBad_ptr, acyclicFrom_of_dec exBad_dec _, by decide⟩

/-- Without fixUp a cyclic graph makes the serialiser recurse forever (stack overflow): Add( self, 0 ). -/
theorem C09_cycle_diverges :
    serialise Registry.reg false [⟨some 21, [], [some 0], [(none, f0)]⟩] 0 = .nonterm := by decide +kernel

/-! ## C03 -/

/-- **C03** The text of every node-data graph the serialiser accepts decodes, as base64, to exactly the byte
stream the serialiser built (here for fixUp off; see `C03_fixup` for fixUp on). -/
theorem C03_text_decodes (reg : Reg) (hreg : RegOK reg) (A A' : Arena) (root : Nat)
    (hp : PointersValid reg A root) (hac : AcyclicFrom A root) (hsz : A.length < 2 ^ 54) (text : List UInt8)
    (h : serialise reg false A root = .text text A') (hne : text ≠ []) :
    ∃ st, serStream reg false (A.length + 1) A root = .done true st ∧
      Base64.decode text = .done st.ws.stream := by
  rcases serialise_facts hreg hp hac with ⟨_, e⟩ | ⟨hw, ts, refs, k, h1, _, hk, hn, hg, hrch, h2, h3, h4⟩
  · rw [e] at h; cases h; exact absurd rfl hne
  · have hlen : refs.length ≤ A.length := by
      have := nodup_length_le hn.nodup.1 (fun p hp' => by
        obtain ⟨nd, hA, _⟩ := hp p (hrch p hp')
        exact (List.getElem?_eq_some_iff.mp hA).1) (n := A.length)
      simpa using this
    obtain ⟨text', t1, t2, t3, t4⟩ := Base64.C01_roundtrip_iff _ h2 (by omega)
    have e := serialise_of_done h1 t1
    rw [e] at h
    cases h
    refine ⟨_, h1, ?_⟩
    have := Base64.C01_roundtrip_partial _ h2 (by omega) h4
    rw [t1] at this
    simpa using this

/-- Hypotheses met by the shared graph above. -/
example : ∃ text, serialise Registry.reg false exGood 2 = .text text exGood ∧ text ≠ [] := by
  obtain ⟨text, e, h⟩ := C09_serialise_total_iff _ reg_ok exGood 2 exGood_ptr (acyclicFrom_of_dec exGood_dec _)
    (by decide)
  refine ⟨text, e, ?_⟩
  have : serialise Registry.reg false exGood 2 ≠ .text [] exGood := by decide +kernel
  intro hn
  rw [hn] at e; exact this e

/-! ## C04 -/

/-- **C04** Serialising any acyclic graph of at most 65536 complete nodes and deserialising the text gives
back the same graph: same types, variable bits, sources, hybrid sources/values and sharing.  (The format
numbers nodes with 16 bits, which is where 65536 comes from.) -/
theorem C04_roundtrip (reg : Reg) (hreg : RegOK reg) (A : Arena) (root : Nat)
    (hp : PointersValid reg A root) (hac : AcyclicFrom A root) (hc : ∀ p, Reach A root p → Complete reg A p)
    (h16 : AtMost 65536 A root) :
    ∃ text root' B, serialise reg false A root = .text text A ∧
      deserialiseNodeData reg text = .tree root' B ∧ SameTree A root B root' := by
  obtain ⟨text, stream, refs, k, out, h1, h2, h3, hk, hn, hg, hlen, hC, hrch⟩ :=
    roundtrip_core (nd_mk reg) hreg hp hac (fun _ _ _ _ _ _ _ _ _ _ _ _ _ => trivial) hc h16
  refine ⟨text, k, out, h1, by simp only [deserialiseNodeData, h2, decodeND, h3], ?_⟩
  refine ⟨fun p => (refs.lookup p).getD 0, by simp [hk], ?_, ?_, ?_⟩
  · intro p q hp' hq e
    obtain ⟨kp, h5⟩ := good_reach hg hk p hp'
    obtain ⟨kq, h6⟩ := good_reach hg hk q hq
    simp only [h5, h6, Option.getD_some] at e
    subst e
    exact hn.inj hlen h5 h6
  · intro p n hp' hA
    obtain ⟨kp, h5⟩ := good_reach hg hk p hp'
    obtain ⟨nd, id, m, hw, hch⟩ := hg p kp h5
    have hnd : nd = n := by have := hw.1; rw [hA] at this; exact (Option.some.inj this).symm
    subst hnd
    have hout := hC.node p kp nd h5 hA
    rw [expNode_of hw] at hout
    simp only [hw.2.2.1, Option.map_some, Option.getD_some] at hout
    refine ⟨_, by simp only [h5, Option.getD_some]; exact hout, hw.2.1.symm, ?_, ?_, ?_⟩
    · exact expVars_get _ _ _ rfl hw.2.2.2.1 (fun i v d _ h _ => h)
    · apply List.map_congr_left
      intro x hx
      cases x with
      | none => rfl
      | some c =>
        obtain ⟨kc, h7⟩ := hch c (linkND_lookup hA hx)
        simp [h7]
    · obtain ⟨g1, g2⟩ := expHyb_spec (fun q => refs.lookup q) m.hybrids nd.hybrids hw.2.2.2.2.2.1
      refine ⟨g1, fun i h h' a b => ?_⟩
      obtain ⟨g3, g4⟩ := g2 i h h' a b
      refine ⟨?_, g4⟩
      rw [g3]
      obtain ⟨l, v⟩ := h
      cases l with
      | none => rfl
      | some c =>
        obtain ⟨kc, h7⟩ := hch c (linkND_hybrid hA (List.mem_of_getElem? a))
        simp [h7]
  · intro k' hk'
    rw [hC.len] at hk'
    obtain ⟨p, hp', e⟩ := hn.surj hlen k' hk'
    exact ⟨p, hrch p hp', by simp [e]⟩

theorem exGood_complete : ∀ p, Reach exGood 2 p → Complete Registry.reg exGood p := by
  intro p hp
  have := reach_lt exGood_dec (by decide) p hp
  have h6 : Registry.reg[6]? = some ⟨[f100, 0, fm1, f1], [], [], false⟩ := by decide +kernel
  have h13 : Registry.reg[13]? = some ⟨[3, f2], [.any], [f05, f0], false⟩ := by decide +kernel
  have h21 : Registry.reg[21]? = some ⟨[], [.any], [f0], false⟩ := by decide +kernel
  match p, this with
  | 0, _ => exact ⟨_, 6, _, rfl, rfl, h6, by decide, by decide, by decide, by decide⟩
  | 1, _ => exact ⟨_, 13, _, rfl, rfl, h13, by decide, by decide, by decide, by decide⟩
  | 2, _ => exact ⟨_, 21, _, rfl, rfl, h21, by decide, by decide, by decide, by decide⟩

/-- Hypotheses met by the shared graph above. -/
example : (∀ p, Reach exGood 2 p → Complete Registry.reg exGood p) ∧ AtMost 65536 exGood 2 :=
  ⟨exGood_complete, [0, 1, 2], by decide, fun p hp => by
    have := reach_lt exGood_dec (by decide) p hp
    have : p = 0 ∨ p = 1 ∨ p = 2 := by omega
    simpa using this⟩

/-- The constant of a hybrid that has a source is not stored: it comes back as the default. -/
theorem C04_linked_constant_lost :
    ∃ text, serialise Registry.reg false
        [⟨some 0, [f1], [], []⟩, ⟨some 21, [], [some 0], [(some 0, f2)]⟩] 1 =
        .text text [⟨some 0, [f1], [], []⟩, ⟨some 21, [], [some 0], [(some 0, f2)]⟩] ∧
      deserialiseNodeData Registry.reg text =
        .tree 1 [⟨some 0, [f1], [], []⟩, ⟨some 21, [], [some 0], [(some 0, f0)]⟩] :=
  ⟨[70, 81, 107, 65, 66, 65, 76, 47, 64, 65, 69], by decide +kernel, by decide +kernel⟩

/-! ## C05 -/

/-- **C05** (partial) The generator built from the text of a graph has, node for node and member for member,
the configuration of the generator built by hand from that graph, provided the classes' constructor values
agree with the metadata defaults wherever the graph uses a default.  The full statement has no such
provision; it fails for DistanceToPoint, see `C05_distance_to_point_differs`. -/
theorem C05_generator_matches_partial (reg : Reg) (hreg : RegOK reg) (cd : List ClassDefaults) (hcd : CdOK reg cd)
    (A : Arena) (root : Nat) (hp : PointersValid reg A root) (hac : AcyclicFrom A root)
    (hc : ∀ p, Reach A root p → Complete reg A p) (h16 : AtMost 65536 A root) (hfit : SourcesFit reg A root)
    (hd : DefaultsAgree reg cd A root) :
    ∃ text root' B, serialise reg false A root = .text text A ∧
      newFromEncodedNodeTree reg cd true text = .tree root' B ∧ SameGenTree A root B root' := by
  have hT : Typed (Accepts reg) A root := by
    intro p i c nd nc id cid hr hA hid hl hAc hcid
    obtain ⟨nd', id', m, w1, w2, w3, _, w5, _⟩ := hc p hr
    rw [hA] at w1; cases w1
    rw [hid] at w2; cases w2
    have hrc : Reach A root c := Relation.ReflTransGen.tail hr (linkND_lookup hA (List.mem_of_getElem? hl))
    obtain ⟨nc', cid', mc, v1, v2, v3, _⟩ := hc c hrc
    rw [hAc] at v1; cases v1
    rw [hcid] at v2; cases v2
    have hi : i < m.lookups.length := by
      have := (List.getElem?_eq_some_iff.mp hl).1
      omega
    have hk := List.getElem?_eq_getElem hi
    refine ⟨m, _, mc, w3, hk, v3, ?_⟩
    have := hfit p i c nd nc id cid m _ mc hr hA hid w3 hk hl hAc hcid v3
    cases hkk : m.lookups[i] with
    | any => rfl
    | warp => rw [hkk] at this; exact this rfl
  obtain ⟨text, stream, refs, k, out, h1, h2, h3, hk, hn, hg, hlen, hC, hrch⟩ :=
    roundtrip_core (sn_mk reg cd hcd) hreg hp hac hT hc h16
  refine ⟨text, k, out, h1, by simp only [newFromEncodedNodeTree, h2, decodeSN, h3], ?_⟩
  refine ⟨fun p => (refs.lookup p).getD 0, by simp [hk], ?_, ?_, ?_⟩
  · intro p q hp' hq e
    obtain ⟨kp, h5⟩ := good_reach hg hk p hp'
    obtain ⟨kq, h6⟩ := good_reach hg hk q hq
    simp only [h5, h6, Option.getD_some] at e
    subst e
    exact hn.inj hlen h5 h6
  · intro p n hp' hA
    obtain ⟨kp, h5⟩ := good_reach hg hk p hp'
    obtain ⟨nd, id, m, hw, hch⟩ := hg p kp h5
    have hnd : nd = n := by have := hw.1; rw [hA] at this; exact (Option.some.inj this).symm
    subst hnd
    have hout := hC.node p kp nd h5 hA
    rw [expNode_of hw] at hout
    have hlt := (List.getElem?_eq_some_iff.mp hw.2.2.1).1
    rw [← hcd.1] at hlt
    have hcg := List.getElem?_eq_getElem hlt
    obtain ⟨hd1, hd2⟩ := hd p nd id m _ hp' hA hw.2.1 hw.2.2.1 hcg
    simp only [hcg, Option.map_some, Option.getD_some] at hout
    rw [expVars_get _ _ _ (hcd.2 id m _ hw.2.2.1 hcg).1 hw.2.2.2.1 hd1, hd2] at hout
    refine ⟨_, by simp only [h5, Option.getD_some]; exact hout, hw.2.1, rfl, ?_, ?_⟩
    · simp only [List.map_map]
      apply List.map_congr_left
      intro x hx
      cases x with
      | none => rfl
      | some c =>
        obtain ⟨kc, h7⟩ := hch c (linkND_lookup hA hx)
        simp [h7]
    · obtain ⟨g1, g2⟩ := expHyb_spec (fun q => refs.lookup q) m.hybrids nd.hybrids hw.2.2.2.2.2.1
      refine ⟨by simp [g1], fun i h h' a b => ?_⟩
      simp only [List.getElem?_map, Option.map_eq_some_iff] at b
      obtain ⟨x, hx, rfl⟩ := b
      obtain ⟨g3, g4⟩ := g2 i h x a hx
      refine ⟨?_, g4⟩
      simp only [g3]
      obtain ⟨l, v⟩ := h
      cases l with
      | none => rfl
      | some c =>
        obtain ⟨kc, h7⟩ := hch c (linkND_hybrid hA (List.mem_of_getElem? a))
        simp [h7]
  · intro k' hk'
    rw [hC.len] at hk'
    obtain ⟨p, hp', e⟩ := hn.surj hlen k' hk'
    exact ⟨p, hrch p hp', by simp [e]⟩

/-- **C05** for the shipped node types the provision holds for every graph without DistanceToPoint nodes,
and for DistanceToPoint nodes whose distance function is not the metadata default. -/
theorem C05_shipped_defaults (A : Arena) (root : Nat)
    (h : ∀ p nd, Reach A root p → A[p]? = some nd → nd.md = some 5 → ∀ v ∈ nd.vars, v ≠ 0) :
    DefaultsAgree Registry.reg classDefaults A root := by
  have hall : ∀ n ∈ nodes.zipIdx, n.2 ≠ 5 → n.1.classVars = n.1.toMeta.vars := by decide +kernel
  have hh : ∀ n ∈ nodes, n.classHybs = n.toMeta.hybrids := by decide +kernel
  have h5 : ∀ n ∈ nodes.zipIdx, n.2 = 5 → n.1.toMeta.vars = [0] := by decide +kernel
  intro p nd id m c hr hA hid hm hc
  simp only [Registry.reg, classDefaults, List.getElem?_map, Option.map_eq_some_iff] at hm hc
  obtain ⟨n, hn, rfl⟩ := hm
  obtain ⟨n', hn', rfl⟩ := hc
  rw [hn] at hn'
  cases hn'
  have hz : (n, id) ∈ nodes.zipIdx := by
    rw [List.mem_zipIdx_iff_getElem?]
    exact hn
  refine ⟨?_, hh n (List.mem_of_getElem? hn)⟩
  intro i v d hv hd e
  by_cases e5 : id = 5
  · subst e5
    have := h5 _ hz rfl
    simp only at this
    rw [this] at hd
    have hd0 : d = 0 := by
      have := List.mem_of_getElem? hd
      simpa using this
    exact absurd (e.trans hd0) (h p nd hr hA hid v (List.mem_of_getElem? hv))
  · have := hall _ hz e5
    simp only at this ⊢
    rw [this]; exact hd

/-- **C05** is violated by the code: a DistanceToPoint with the (default) Euclidean distance function,
serialised and rebuilt with `NewFromEncodedNodeTree`, uses EuclideanSquared. -/
theorem C05_distance_to_point_differs :
    ∃ text, serialise Registry.reg false
        [⟨some 5, [0], [], [(none, 0), (none, 0), (none, 0), (none, 0), (none, f15)]⟩] 0 =
        .text text [⟨some 5, [0], [], [(none, 0), (none, 0), (none, 0), (none, 0), (none, f15)]⟩] ∧
      newFromEncodedNodeTree Registry.reg classDefaults true text =
        .tree 0 [⟨5, [1], [], [(none, 0), (none, 0), (none, 0), (none, 0), (none, f15)]⟩] :=
  ⟨[66, 81, 81, 61], by decide +kernel, by decide +kernel⟩

/-- Hypotheses met by the shared graph above. -/
example : SourcesFit Registry.reg exGood 2 ∧ DefaultsAgree Registry.reg classDefaults exGood 2 := by
  refine ⟨?_, C05_shipped_defaults _ _ ?_⟩
  · intro p i c nd nc id cid m k mc hr hA hid hm hk hl hAc hcid hmc hw
    have := reach_lt exGood_dec (by decide) p hr
    have h6 : Registry.reg[6]? = some ⟨[f100, 0, fm1, f1], [], [], false⟩ := by decide +kernel
    have h13 : Registry.reg[13]? = some ⟨[3, f2], [.any], [f05, f0], false⟩ := by decide +kernel
    have h21 : Registry.reg[21]? = some ⟨[], [.any], [f0], false⟩ := by decide +kernel
    have hkm : k ∈ m.lookups := List.mem_of_getElem? hk
    match p, this with
    | 0, _ => simp [exGood] at hA; subst hA; cases hid; rw [h6] at hm; cases hm; simp at hkm
    | 1, _ => simp [exGood] at hA; subst hA; cases hid; rw [h13] at hm; cases hm; simp [hw] at hkm
    | 2, _ => simp [exGood] at hA; subst hA; cases hid; rw [h21] at hm; cases hm; simp [hw] at hkm
  · intro p nd hr hA h5
    have := reach_lt exGood_dec (by decide) p hr
    match p, this with
    | 0, _ => simp [exGood] at hA; subst hA; simp at h5
    | 1, _ => simp [exGood] at hA; subst hA; simp at h5
    | 2, _ => simp [exGood] at hA; subst hA; simp at h5

end FastNoise.RT
