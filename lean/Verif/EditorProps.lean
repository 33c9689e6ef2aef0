import Verif.EditorAnyFile
import Mathlib.Data.List.Permutation
/-! # C34, C35: the node editor -/
namespace FastNoise.Editor
open FastNoise.Ser FastNoise.Deser FastNoise.Stream FastNoise.Spec FastNoise.RT
open Relation

/-! ## C34: ids -/

/-- **C34** An input pin's id leads back to its node and its position; so does an output pin's id. -/
theorem C34_attr_decodes (id k : Nat) (hid : id * 256 + 255 < 2 ^ 31) (hk : k < 16) :
    nodeIdOf (startAttr id + k) = id ∧ (startAttr id + k) &&& 15 = k ∧ nodeIdOf (outAttr id) = id ∧ outAttr id &&& attributeBitMask = attributeBitMask ∧
    (startAttr id + k) &&& attributeBitMask ≠ attributeBitMask ∧ startAttr id + k < 2 ^ 31 ∧ outAttr id < 2 ^ 31 := by
  have hle : id ≤ maxId := by rw [maxId_eq]; omega
  have ho : outAttr id = id * 256 + 255 := by
    unfold outAttr
    rw [startAttr_eq hle]
    have : attributeBitMask = 255 := by decide
    rw [this, show id * 256 = 2 ^ 8 * id by omega, ← Nat.two_pow_add_eq_or_of_lt (by norm_num)]
  have hm : attributeBitMask = 2 ^ 8 - 1 := by decide
  refine ⟨?_, attr_low hle hk, ?_, ?_, ?_, ?_, ?_⟩
  · unfold nodeIdOf attributeBitCount; rw [startAttr_eq hle, Nat.shiftRight_eq_div_pow]; omega
  · unfold nodeIdOf attributeBitCount; rw [ho, Nat.shiftRight_eq_div_pow]; omega
  · rw [ho, hm, Nat.and_two_pow_sub_one_eq_mod]; omega
  · rw [startAttr_eq hle, hm, Nat.and_two_pow_sub_one_eq_mod]; omega
  · rw [startAttr_eq hle]; omega
  · rw [ho]; omega

/-- **C34** Pins of the graph never share an id: not two inputs, not two outputs, not an input and an output, and none has the id 0 of the static labels or a node
without id (ids start at 1). -/
theorem C34_attr_distinct (i j k l : Nat) (hi : i * 256 + 255 < 2 ^ 31) (hj : j * 256 + 255 < 2 ^ 31) (hk : k < 16) (hl : l < 16) :
    (startAttr i + k = startAttr j + l ↔ i = j ∧ k = l) ∧ (outAttr i = outAttr j ↔ i = j) ∧ startAttr i + k ≠ outAttr j ∧
    (1 ≤ i → startAttr i + k ≠ 0 ∧ outAttr i ≠ 0) := by
  obtain ⟨a1, a2, a3, a4, a5, -⟩ := C34_attr_decodes i k hi hk
  obtain ⟨b1, b2, b3, b4, b5, -⟩ := C34_attr_decodes j l hj hl
  refine ⟨⟨fun h => ⟨?_, ?_⟩, fun ⟨h1, h2⟩ => by rw [h1, h2]⟩, ⟨fun h => ?_, fun h => by rw [h]⟩, ?_, fun h => ⟨?_, ?_⟩⟩
  · rw [h] at a1; omega
  · rw [h] at a2; omega
  · rw [h] at a3; omega
  · intro h; rw [h] at a5; exact a5 b4
  · intro h0; rw [h0, show nodeIdOf 0 = 0 from rfl] at a1; omega
  · intro h0; rw [h0, show nodeIdOf 0 = 0 from rfl] at a3; omega

example : startAttr 5 + 3 = 1283 ∧ outAttr 5 = 1535 ∧ nodeIdOf 1283 = 5 := by decide +kernel

/-- **C34** An id taken from the counter is not in use and in range, whatever ids are in use. -/
theorem C34_free_id (used : List Nat) (counter fuel r : Nat) (hc : counter * 256 + 255 < 2 ^ 31) (h : freeId used fuel counter = some r) :
    r ∉ used ∧ 1 ≤ r ∧ r * 256 + 255 < 2 ^ 31 := by
  obtain ⟨h1, h2, h3⟩ := freeId_spec used fuel counter (by rw [maxId_eq]; omega) r h
  rw [maxId_eq] at h3
  exact ⟨h1, h2, lt_of_le_of_lt (Nat.add_le_add_right (Nat.mul_le_mul_right 256 h3) 255) (by norm_num)⟩

/-- **C34** The search ends exactly if some id of the range is not in use, and then within one turn around the range. -/
theorem C34_free_id_terminates (used : List Nat) (counter : Nat) (hc : counter * 256 + 255 < 2 ^ 31) :
    (∃ fuel r, freeId used fuel counter = some r) ↔ ∃ i, 1 ≤ i ∧ i * 256 + 255 < 2 ^ 31 ∧ i ∉ used := by
  constructor
  · rintro ⟨fuel, r, h⟩
    obtain ⟨h1, h2, h3⟩ := C34_free_id used counter fuel r hc h
    exact ⟨r, h2, h3, h1⟩
  · rintro ⟨i, h1, h2, h3⟩
    obtain ⟨r, hr⟩ := freeId_total used counter (by rw [maxId_eq]; omega) i ⟨h1, by rw [maxId_eq]; omega⟩ h3 maxId le_rfl
    exact ⟨maxId, r, hr⟩

example : freeId [1, 2, 8388607] 10 8388606 = some 3 := by decide +kernel

/-- An id above the range (possible only through an edited settings file, which is not checked) makes pins ambiguous: the shift drops its high bits. -/
theorem C34_large_id_collides : startAttr (2 ^ 24 + 5) = startAttr 5 ∧ nodeIdOf (startAttr (2 ^ 24 + 5)) = 5 := by decide

/-! ## C35: the graph -/

theorem inv_of_session {reg : Reg} (hr : FewLinks reg) (hw : WarpFirst reg) {st : Ed} (h : Session reg st) : Inv reg st := by
  induction h with
  | start => exact inv_init reg
  | opened hf hρ he => exact ((load_ok hw hρ hf _).2.2 _ he).1.1
  | step _ hρ hp hd he ih => exact step_ok hr hρ ih hp hd he

/-- **C35** In every state an editing session can reach (any operations, any hash table order) the graph is sound: no dangling links, no cycles, unique ids.  Partial: popups of
dropped links whose source node was deleted meanwhile are excluded, see `C35_drop_dangling`. -/
theorem C35_sound_partial (st : Ed) (h : Session Registry.reg st) : Sound Registry.reg st := sound_of_inv (inv_of_session few_reg warpFirst_reg h)

/-- **C35** No operation the interface offers does anything undefined.  Partial: excluded are the deletion of a node that some node depends on in two ways
(`C35_delete_uaf`) and popups of dropped links whose source was deleted (`C35_drop_dangling`). -/
theorem C35_no_ub_partial (st : Ed) (h : Session Registry.reg st) (op : Op) (hp : Possible Registry.reg st op) (hd : IsAddDropped op → DropAlive st)
    (hu : ∀ id p, op = .delete id → (p, id) ∈ st.nodes → OneUserPath st p) (ρ : List (Nat × Nat) → List (Nat × Nat)) (hρ : SomeOrder ρ) (fuel : Nat) (hf : st.nodes.length < fuel) :
    step Registry.reg ρ fuel st op ≠ .ub :=
  step_safe few_reg hρ (inv_of_session few_reg warpFirst_reg h) hp hd (fun id p e hm => ⟨hu id p e hm, hf⟩) (fun _ _ => hf)

/-- **C35** Every operation ends, with a recursion depth bounded by the number of nodes, while ids are left.  Partial: excluded are links that close a cycle (see
`C35_cycle_repaired` and `C35_cycle_recursion`) and what `C35_no_ub_partial` excludes. -/
theorem C35_terminates_partial (st : Ed) (h : Session Registry.reg st) (op : Op) (hp : Possible Registry.reg st op) (hd : IsAddDropped op → DropAlive st)
    (hu : ∀ id p, op = .delete id → (p, id) ∈ st.nodes → OneUserPath st p)
    (hl : ∀ s e attr snap ps pe, op = .link s e attr snap → (ps, s) ∈ st.nodes → (pe, e) ∈ st.nodes → ¬ Reach st.arena ps pe)
    (hroom : st.nodes.length + adds Registry.reg op ≤ 2 ^ 23 - 1)
    (ρ : List (Nat × Nat) → List (Nat × Nat)) (hρ : SomeOrder ρ) (fuel : Nat) (hf : 2 ^ 23 + st.nodes.length + adds Registry.reg op ≤ fuel) :
    ∃ st', step Registry.reg ρ fuel st op = .ok st' ∧ Sound Registry.reg st' := by
  have hi := inv_of_session few_reg warpFirst_reg h
  have ha : added Registry.reg op = adds Registry.reg op := by cases op <;> rfl
  have h1 := step_safe few_reg (fuel := fuel) hρ hi hp hd (fun id p e hm => ⟨hu id p e hm, by omega⟩) (fun _ _ => by omega)
  have h2 := step_stops few_reg (fuel := fuel) hρ hi hp hd hu hl (by rw [ha, maxId_eq]; omega) (by rw [ha, maxId_eq]; omega)
  cases e : step Registry.reg ρ fuel st op with
  | ub => exact absurd e h1
  | deep => exact absurd e h2
  | ok st' => exact ⟨st', rfl, sound_of_inv (step_ok few_reg hρ hi hp hd e)⟩

/-- **C35** A link that closes a cycle is taken apart again and the previews end, if the end node's tree serialises (nothing but the cycle is wrong with it). -/
theorem C35_cycle_repaired (st : Ed) (h : Session Registry.reg st) (s e k ps pe : Nat) (hs : (ps, s) ∈ st.nodes) (he : (pe, e) ∈ st.nodes) (nd nd' : NodeData)
    (hn : st.arena[pe]? = some nd) (hk : k < nd.lookups.length + nd.hybrids.length) (hn' : setLink nd (startAttr e + k) (some ps) = some nd')
    (text : List UInt8) (A' : Arena) (ht : serialise Registry.reg true (st.arena.set pe nd') pe = .text text A') (hne : text ≠ [])
    (ρ : List (Nat × Nat) → List (Nat × Nat)) (hρ : SomeOrder ρ) (fuel : Nat) (hf : st.nodes.length < fuel) :
    ∃ st', step Registry.reg ρ fuel st (.link s e (startAttr e + k) false) = .ok st' ∧ Sound Registry.reg st' := by
  have hi := inv_of_session few_reg warpFirst_reg h
  have fs : findNode st.nodes s = some ps := find_of_mem hi hs
  have fe : findNode st.nodes e = some pe := find_of_mem hi he
  have hp : Possible Registry.reg st (.link s e (startAttr e + k) false) := by
    intro p nd0 h1 h2
    have := find_of_mem hi h1
    rw [fe] at this; cases this
    rw [hn] at h2; cases h2
    exact ⟨k, hk, rfl⟩
  have h1 := step_safe few_reg (ρ := ρ) (fuel := fuel) hρ hi hp (by simp [IsAddDropped]) (by simp) (by simp)
  have h2 : step Registry.reg ρ fuel st (.link s e (startAttr e + k) false) ≠ .deep := by
    simp only [step, fs, fe]
    split
    · intro h; cases h
    · rw [if_pos (Or.inl trivial)]
      refine link_repaired hρ hi (find_ptr fe) hf ?_
      intro a b ha hb
      rw [hn] at ha; cases ha
      rw [hn'] at hb; cases hb
      obtain ⟨nd'', a1, a2, a3, _⟩ := link_edit (ps := ps) few_reg hi he hn hk
      rw [hn'] at a1; cases a1
      refine ⟨⟨a2, fun c hc => ?_⟩, text, A', ht, hne⟩
      rcases a3 c hc with h' | rfl
      · exact closed_nd hi (find_ptr fe) hn h'
      · exact find_ptr fs
  cases e' : step Registry.reg ρ fuel st (.link s e (startAttr e + k) false) with
  | ub => exact absurd e' h1
  | deep => exact absurd e' h2
  | ok st' => exact ⟨st', rfl, sound_of_inv (step_ok few_reg hρ hi hp (by simp [IsAddDropped]) e')⟩

theorem fit_of_session {reg : Reg} (hr : FewLinks reg) (hw : WarpFirst reg) {st : Ed} (h : Session reg st) : AllFit reg st := by
  induction h with
  | start => intro q hq; simp [ptrs, init] at hq
  | opened hf hρ he => exact ((load_ok hw hρ hf _).2.2 _ he).1.2
  | step h hρ hp hd e ih => exact step_fits hr hw hρ (inv_of_session hr hw h) hp hd ih e

/-- **C35** In every state of a session, a source slot that takes only domain warps holds a domain warp or nothing - whatever was linked, converted, imported or deleted before. -/
theorem C35_warp_slots (st : Ed) (h : Session Registry.reg st) (p : Nat) (hp : Shown st p) (i c : Nat) (nd nc : NodeData) (id cid : Nat) (m mc : Meta)
    (hn : st.arena[p]? = some nd) (hid : nd.md = some id) (hm : Registry.reg[id]? = some m) (hk : m.lookups[i]? = some Kind.warp) (hl : nd.lookups[i]? = some (some c))
    (hc : st.arena[c]? = some nc) (hcid : nc.md = some cid) (hmc : Registry.reg[cid]? = some mc) : mc.isWarp = true :=
  fit_of_session few_reg warpFirst_reg h p (mem_ptrs.mpr hp) i c nd nc id cid m mc hn hid hm hk hl hc hcid hmc

/-- **C35** A new link that closes no cycle, and does not connect another kind of node to a domain warp slot, sets exactly the input it was dragged to; no other node and no
other input changes. -/
theorem C35_link_exact (st : Ed) (h : Session Registry.reg st) (s e k ps pe : Nat) (hs : (ps, s) ∈ st.nodes) (he : (pe, e) ∈ st.nodes) (nd : NodeData)
    (hn : st.arena[pe]? = some nd) (hk : k < nd.lookups.length + nd.hybrids.length) (hcy : ¬ Reach st.arena ps pe)
    (hfit : ∀ (id : Nat) (m : Meta) (nc : NodeData) (cid : Nat) (mc : Meta), nd.md = some id → Registry.reg[id]? = some m → m.lookups[k]? = some Kind.warp → st.arena[ps]? = some nc → nc.md = some cid →
      Registry.reg[cid]? = some mc → mc.isWarp = true) (hsz : st.arena.length < 2 ^ 54)
    (ρ : List (Nat × Nat) → List (Nat × Nat)) (hρ : SomeOrder ρ) (fuel : Nat) (hf : st.nodes.length < fuel) :
    ∃ nd', step Registry.reg ρ fuel st (.link s e (startAttr e + k) false) = .ok { st with arena := st.arena.set pe nd' } ∧
      nd'.md = nd.md ∧ nd'.vars = nd.vars ∧ nd'.hybrids.map (·.2) = nd.hybrids.map (·.2) ∧ nd'.lookups.length = nd.lookups.length ∧
      nd'.lookups ++ nd'.hybrids.map (·.1) = (nd.lookups ++ nd.hybrids.map (·.1)).set k (some ps) := by
  have hi := inv_of_session few_reg warpFirst_reg h
  have fs : findNode st.nodes s = some ps := find_of_mem hi hs
  have fe : findNode st.nodes e = some pe := find_of_mem hi he
  have hsh := shaped_of_live hi.good (find_ptr fe) hn
  obtain ⟨nd', a0, a1, a2, a3, a4, a5⟩ := setLink_spec (ptr_id hi he).2 (by rw [length_links]; exact hk) (hsh.few few_reg) (some ps)
  refine ⟨nd', ?_, a1, a2, a4, a3, a5⟩
  have hgl := getLink_spec (ptr_id hi he).2 (by rw [length_links]; exact hk) (hsh.few few_reg)
  simp only [step, fs, fe, hn, Option.bind_some, hgl]
  rw [List.getElem?_eq_getElem (by rw [length_links]; exact hk)]
  simp only [true_or, if_true]
  refine editNode_exact Registry.reg_ok hρ hi (find_ptr fe) hf hn a0 (hsh.of_setLink a1 a2 a3 a4) ?_ ?_ hsz
  swap
  · have hf0 := fit_of_session few_reg warpFirst_reg h
    have hg : Good Registry.reg (ptrs st) (st.arena.set pe nd') := hi.good.set (find_ptr fe) (hsh.of_setLink a1 a2 a3 a4) (fun c hc => by
      rcases nlink_of_links a5 hc with h' | h'
      · exact closed_nd hi (find_ptr fe) hn h'
      · cases h'; exact find_ptr fs)
    have hpe := hi.good.lt (find_ptr fe)
    refine fun q hq => sourcesFit_of hg ?_ hq
    intro q hq i c n nc id cid m mc h1 h2 h3 h4 h5 h6 h7 h8
    have hcm : ∃ nc0, st.arena[c]? = some nc0 ∧ nc0.md = nc.md := by
      by_cases ec : c = pe
      · subst ec; rw [List.getElem?_set_self hpe] at h6; cases h6; exact ⟨nd, hn, a1.symm⟩
      · rw [List.getElem?_set_ne (Ne.symm ec)] at h6; exact ⟨nc, h6, rfl⟩
    obtain ⟨nc0, g1, g2⟩ := hcm
    by_cases eq : q = pe
    · subst eq
      rw [List.getElem?_set_self hpe] at h1; cases h1
      have hil := (List.getElem?_eq_some_iff.mp h5).1
      have hlk : (links nd')[i]? = some (some c) := by unfold links; rw [List.getElem?_append_left hil]; exact h5
      rw [show links nd' = _ from a5, List.getElem?_set] at hlk
      by_cases eik : k = i
      · rw [if_pos eik] at hlk
        split_ifs at hlk
        cases hlk
        exact hfit id m nc0 cid mc (by rw [← a1]; exact h2) h3 (by rw [eik]; exact h4) g1 (by rw [g2]; exact h7) h8
      · rw [if_neg eik] at hlk
        have hlk' : nd.lookups[i]? = some (some c) := by
          unfold links at hlk; rw [List.getElem?_append_left (by rw [← a3]; exact hil)] at hlk; exact hlk
        exact hf0 q hq i c nd nc0 id cid m mc hn (by rw [← a1]; exact h2) h3 h4 hlk' g1 (by rw [g2]; exact h7) h8
    · rw [List.getElem?_set_ne (Ne.symm eq)] at h1
      exact hf0 q hq i c n nc0 id cid m mc h1 h2 h3 h4 h5 g1 (by rw [g2]; exact h7) h8
  intro c hc
  rcases nlink_of_links a5 hc with h' | h'
  · exact Or.inl h'
  · cases h'; exact Or.inr ⟨find_ptr fs, hcy⟩

theorem fillLinks_get : ∀ (a b : List (Option Nat)), (∀ x ∈ b, x = none) → ∀ i, i < b.length → (fillLinks a b)[i]? = some (a[i]?.getD none)
  | l :: ls, s :: ss, hb, 0, _ => by simp [fillLinks]
  | l :: ls, s :: ss, hb, i + 1, hi => by
    simpa [fillLinks] using fillLinks_get ls ss (fun x hx => hb x (by simp [hx])) i (by simpa using hi)
  | [], ss, hb, i, hi => by
    rw [fillLinks, List.getElem?_eq_getElem hi, hb _ (List.getElem_mem hi)]; simp
  | _ :: _, [], _, i, hi => by simp at hi

/-- **C35** Converting a node to another type of its group: if the member names match, the node keeps every value and every link and only its type changes; otherwise it starts
from the defaults of the new type and takes over the links in order - input `i` of the new node is connected to what input `i` of the old node was connected to - as far
as it has inputs.  Nothing else in the editor changes.  (Provided no domain warp slot would be left with another kind of node: neither a slot of the new
type, nor a slot of a user of the node.) -/
theorem C35_convert_exact (st : Ed) (h : Session Registry.reg st) (p id md : Nat) (same : Bool) (hp : (p, id) ∈ st.nodes) (nd : NodeData) (hn : st.arena[p]? = some nd) (m : Meta)
    (hm : Registry.reg[md]? = some m) (hin : ∀ (i c : Nat) (nc : NodeData) (cid : Nat) (mc : Meta), m.lookups[i]? = some Kind.warp → (nd.lookups ++ nd.hybrids.map (·.1))[i]? = some (some c) → st.arena[c]? = some nc → nc.md = some cid →
      Registry.reg[cid]? = some mc → mc.isWarp = true)
    (hout : ∀ (q i : Nat) (nq : NodeData) (idq : Nat) (mq : Meta), Shown st q → st.arena[q]? = some nq → nq.md = some idq → Registry.reg[idq]? = some mq → mq.lookups[i]? = some Kind.warp →
      nq.lookups[i]? = some (some p) → m.isWarp = true)
    (hsz : st.arena.length < 2 ^ 54) (ρ : List (Nat × Nat) → List (Nat × Nat)) (hρ : SomeOrder ρ) (fuel : Nat) (hf : st.nodes.length < fuel) :
    ∃ nd', step Registry.reg ρ fuel st (.convert id md same) = .ok { st with arena := st.arena.set p nd' } ∧ nd'.md = some md ∧
      nd'.lookups.length = m.lookups.length ∧ nd'.hybrids.length = m.hybrids.length ∧
      (if same = true ∧ m.vars.length = nd.vars.length ∧ m.lookups.length = nd.lookups.length ∧ m.hybrids.length = nd.hybrids.length then
        nd'.vars = nd.vars ∧ nd'.lookups = nd.lookups ∧ nd'.hybrids = nd.hybrids
      else
        nd'.vars = m.vars ∧ nd'.hybrids.map (·.2) = m.hybrids ∧
        ∀ i, i < m.lookups.length + m.hybrids.length →
          (nd'.lookups ++ nd'.hybrids.map (·.1))[i]? = some ((nd.lookups ++ nd.hybrids.map (·.1))[i]?.getD none)) := by
  have hi := inv_of_session few_reg warpFirst_reg h
  have fs : findNode st.nodes id = some p := find_of_mem hi hp
  obtain ⟨nd', hc⟩ : ∃ nd', converted Registry.reg nd md same = some nd' := by
    unfold converted newNodeData; rw [hm]; exact ⟨_, rfl⟩
  obtain ⟨a1, a2, a3⟩ := converted_spec hc
  obtain ⟨id', m', b1, b2, b3, b4, b5⟩ := a1
  rw [a2] at b1; cases b1
  rw [hm] at b2; cases b2
  refine ⟨nd', ?_, a2, b4, b5, ?_⟩
  · simp only [step, fs, hm]
    refine editNode_exact Registry.reg_ok hρ hi (find_ptr fs) hf hn hc ⟨md, m, a2, hm, b3, b4, b5⟩ (fun c hc' => Or.inl (a3 c hc')) ?_ hsz
    have hf0 := fit_of_session few_reg warpFirst_reg h
    have hg : Good Registry.reg (ptrs st) (st.arena.set p nd') := hi.good.set (find_ptr fs) ⟨md, m, a2, hm, b3, b4, b5⟩ (fun c hc => closed_nd hi (find_ptr fs) hn (a3 c hc))
    have hlt := hi.good.lt (find_ptr fs)
    refine fun q hq => sourcesFit_of hg ?_ hq
    intro q hq i c n nc idq cid mq mc h1 h2 h3 h4 h5 h6 h7 h8
    have hself : q = p → c = p → False := by
      rintro rfl rfl
      rw [List.getElem?_set_self hlt] at h1; cases h1
      exact hi.loops c hq (.single ⟨nd, hn, a3 c (Or.inl (List.mem_of_getElem? h5))⟩)
    by_cases ec : c = p
    · have eq : q ≠ p := fun e => hself e ec
      subst ec
      rw [List.getElem?_set_self hlt] at h6; cases h6
      rw [a2] at h7; cases h7
      rw [hm] at h8; cases h8
      rw [List.getElem?_set_ne (Ne.symm eq)] at h1
      exact hout q i n idq mq (mem_ptrs.mp hq) h1 h2 h3 h4 h5
    · rw [List.getElem?_set_ne (Ne.symm ec)] at h6
      by_cases eq : q = p
      · subst eq
        rw [List.getElem?_set_self hlt] at h1; cases h1
        rw [a2] at h2; cases h2
        rw [hm] at h3; cases h3
        have hi0 := warpFirst_reg m (List.mem_of_getElem? hm) i h4
        subst hi0
        refine hin 0 c nc cid mc h4 ?_ h6 h7 h8
        unfold converted newNodeData at hc
        simp only [hm, Option.map_some, List.length_map, Option.some.injEq] at hc
        have hl0 : 0 < nd'.lookups.length := (List.getElem?_eq_some_iff.mp h5).1
        split_ifs at hc
        · subst hc
          simp only at h5 hl0
          rw [List.getElem?_append_left hl0]; exact h5
        · subst hc
          simp only at h5 hl0
          rw [fillLinks_get _ _ (by simp) 0 (by rw [fillLinks_length] at hl0; exact hl0)] at h5
          simp only [Option.some.injEq] at h5
          cases hlk : (links nd)[0]? with
          | none => rw [hlk] at h5; simp at h5
          | some x => rw [hlk] at h5; simp at h5; rw [show nd.lookups ++ nd.hybrids.map (·.1) = links nd from rfl, hlk, h5]
      · rw [List.getElem?_set_ne (Ne.symm eq)] at h1
        exact hf0 q hq i c n nc idq cid mq mc h1 h2 h3 h4 h5 h6 h7 h8
  · unfold converted newNodeData at hc
    simp only [hm, Option.map_some, List.length_map, Option.some.injEq] at hc
    by_cases hb : same = true ∧ m.vars.length = nd.vars.length ∧ m.lookups.length = nd.lookups.length ∧ m.hybrids.length = nd.hybrids.length
    · rw [if_pos hb] at hc ⊢
      subst hc; exact ⟨rfl, rfl, rfl⟩
    · rw [if_neg hb] at hc ⊢
      subst hc
      simp only [List.map_map, Function.comp_def]
      have hl : (fillLinks (List.drop m.lookups.length (links nd)) (m.hybrids.map fun _ => (none : Option Nat))).length = m.hybrids.length := by
        rw [fillLinks_length]; simp
      refine ⟨trivial, ?_, fun i hlt => ?_⟩
      · rw [List.map_snd_zip]
        · simp
        · rw [hl]; simp
      · rw [List.map_fst_zip (by rw [hl]; simp)]
        have hl0 : (fillLinks (links nd) (m.lookups.map fun _ => (none : Option Nat))).length = m.lookups.length := by rw [fillLinks_length]; simp
        by_cases hlo : i < m.lookups.length
        · rw [List.getElem?_append_left (by rw [hl0]; exact hlo)]
          exact fillLinks_get _ _ (by simp) i (by simpa using hlo)
        · rw [List.getElem?_append_right (by rw [hl0]; omega), hl0, fillLinks_get _ _ (by simp) _ (by simp; omega), List.getElem?_drop,
            show m.lookups.length + (i - m.lookups.length) = i by omega]
          rfl

/-- Non-vacuity: a Fade with sources 4 and 5 becomes a Subtract: the sources become its two hybrid inputs, the rest is dropped. -/
example : converted Registry.reg ⟨some 40, [1], [some 4, some 5], [(none, 0x3f000000), (some 6, 0), (none, 0)]⟩ 22 false =
    some ⟨some 22, [], [], [(some 4, 0), (some 5, 0)]⟩ := by decide +kernel

/-- **C35** A deleted link is gone, every other link stays or is gone too, no node appears or disappears. -/
theorem C35_unlink (st : Ed) (h : Session Registry.reg st) (p id k : Nat) (hp : (p, id) ∈ st.nodes) (ρ : List (Nat × Nat) → List (Nat × Nat)) (hρ : SomeOrder ρ)
    (fuel : Nat) (hf : st.nodes.length < fuel) :
    ∃ st', step Registry.reg ρ fuel st (.unlink (startAttr id + k)) = .ok st' ∧ st'.nodes = st.nodes ∧
      (∀ nd', st'.arena[p]? = some nd' → ∀ l, (nd'.lookups ++ nd'.hybrids.map (·.1))[k]? = some l → l = none) ∧
      (∀ q c, LinkND st'.arena q c → LinkND st.arena q c) := by
  have hi := inv_of_session few_reg warpFirst_reg h
  obtain ⟨st', e⟩ := unlink_safe (del := startAttr id + k) few_reg hρ hi hf
  obtain ⟨_, e2, _, e4⟩ := unlink_ok hi e
  exact ⟨st', e, e2, unlink_gone few_reg hρ hi hp e, fun q c hc => e4.link hc⟩

/-- **C35** A completed deletion removes exactly the chosen node from the editor and every link to it. -/
theorem C35_delete (st st' : Ed) (h : Session Registry.reg st) (p id : Nat) (hp : (p, id) ∈ st.nodes) (ρ : List (Nat × Nat) → List (Nat × Nat)) (hρ : SomeOrder ρ)
    (fuel : Nat) (e : step Registry.reg ρ fuel st (.delete id) = .ok st') :
    (∀ n, n ∈ st'.nodes ↔ n ∈ st.nodes ∧ n ≠ (p, id)) ∧ ∀ q, Shown st' q → ¬ LinkND st'.arena q p := by
  have hi := inv_of_session few_reg warpFirst_reg h
  have fp := find_of_mem hi hp
  simp only [step, fp] at e
  obtain ⟨e1, e2, _⟩ := delete_ok few_reg hρ hi (find_ptr fp) e
  refine ⟨fun n => ?_, fun q hq hc => ?_⟩
  · rw [e2, List.mem_filter]
    have hS := sound_of_inv hi
    constructor
    · rintro ⟨a, b⟩; exact ⟨a, by rintro rfl; simp at b⟩
    · rintro ⟨a, b⟩
      refine ⟨a, ?_⟩
      simp only [ne_eq, decide_not, Bool.not_eq_eq_eq_not, Bool.not_true, decide_eq_false_iff_not]
      intro hc
      obtain ⟨n1, n2⟩ := n
      simp only at hc; subst hc
      exact b (by rw [(hS.unique _ _ _ _ a hp).mp rfl])
  · have := (sound_of_inv e1).linked q p hq hc
    obtain ⟨i, hm⟩ := this
    rw [e2, List.mem_filter] at hm
    simp at hm

/-! ### Examples and counterexamples -/

/-- Constant, Constant, Add( Constant 2, Constant 1 ), Add( Add, Constant 1 ): the ids are 2, 3, 4, 5. -/
def exOps : List Op := [.add 0, .add 0, .add 21, .add 21, .link 3 4 (startAttr 4) false, .link 2 4 (startAttr 4 + 1) false,
  .link 4 5 (startAttr 5) false, .link 2 5 (startAttr 5 + 1) false]

def exSt : Ed where
  arena := [⟨some 0, [0x3f800000], [], []⟩, ⟨some 0, [0x3f800000], [], []⟩, ⟨some 21, [], [some 1], [(some 0, 0)]⟩, ⟨some 21, [], [some 2], [(some 0, 0)]⟩]
  nodes := [(3, 5), (2, 4), (1, 3), (0, 2)]
  counter := 5
  dropped := none

theorem ex_run : run Registry.reg id 20 exOps init = .ok exSt := by decide +kernel

/-- `Possible` checked by evaluation, for the operations of the examples. -/
def check (st : Ed) : Op → Bool
  | .add _ => true
  | .delete _ => true
  | .unlink _ => true
  | .drop _ => true
  | .link _ e attr _ => st.nodes.all fun n => n.2 ≠ e || match st.arena[n.1]? with
    | none => true
    | some nd => (List.range (nd.lookups.length + nd.hybrids.length)).any fun k => attr = startAttr e + k
  | _ => false

theorem possible_of_check {reg : Reg} {st : Ed} {op : Op} (h : check st op = true) : Possible reg st op ∧ ¬ IsAddDropped op := by
  cases op with
  | link s e attr snap =>
    refine ⟨?_, by simp [IsAddDropped]⟩
    intro p nd h1 h2
    simp only [check, List.all_eq_true] at h
    have := h _ h1
    simp only [h2, ne_eq, not_true_eq_false, decide_false, Bool.false_or, List.any_eq_true, decide_eq_true_eq, List.mem_range] at this
    exact this
  | _ => first | exact ⟨trivial, by simp [IsAddDropped]⟩ | simp [check] at h

def runChecked (reg : Reg) (fuel : Nat) : List Op → Ed → Option Ed
  | [], st => some st
  | op :: ops, st => if check st op then match step reg id fuel st op with
      | .ok st' => runChecked reg fuel ops st'
      | _ => none
    else none

theorem session_run {reg : Reg} {fuel : Nat} : ∀ (ops : List Op) (st st' : Ed), Session reg st → runChecked reg fuel ops st = some st' → Session reg st' := by
  intro ops
  induction ops with
  | nil => intro st st' h e; simp only [runChecked] at e; cases e; exact h
  | cons op ops ih =>
    intro st st' h e
    rw [runChecked] at e
    split_ifs at e with hc
    split at e
    · rename_i s1 hs
      obtain ⟨p1, p2⟩ := possible_of_check hc
      exact ih s1 st' (.step h (fun l => List.Perm.refl _) p1 (fun hd => absurd hd p2) hs) e
    · cases e

/-- The example state is reached by a session, so the hypotheses of the theorems above are met with four linked nodes. -/
theorem ex_session : Session Registry.reg exSt := session_run (fuel := 20) exOps init exSt .start (by decide +kernel)

example : Sound Registry.reg exSt := C35_sound_partial _ ex_session

/-- `C35_warp_slots` is not vacuous: a domain warp (id 3) linked to a domain warp fractal (id 4) stays linked; linking the Constant (id 2) instead leaves the slot empty, and so
does converting the domain warp to a Constant. -/
def warpOps : List Op := [.add 0, .add 18, .add 19, .link 3 4 (startAttr 4) false]

def warpLink (st : Out Ed) : Option (Option Nat) := match st with
  | .ok st => (st.arena[2]?).bind fun nd => nd.lookups[0]?
  | _ => none

example : (∃ st, runChecked Registry.reg 20 warpOps init = some st ∧ Session Registry.reg st) ∧
    warpLink (run Registry.reg id 20 warpOps init) = some (some 1) ∧
    warpLink (run Registry.reg id 20 (warpOps ++ [.link 2 4 (startAttr 4) false]) init) = some none ∧
    warpLink (run Registry.reg id 20 (warpOps ++ [.convert 3 0 false]) init) = some none := by
  refine ⟨?_, by decide +kernel, by decide +kernel, by decide +kernel⟩
  have : (runChecked Registry.reg 20 warpOps init).isSome = true := by decide +kernel
  obtain ⟨st, e⟩ := Option.isSome_iff_exists.mp this
  exact ⟨st, e, session_run (fuel := 20) warpOps init st .start e⟩

/-- A legal deletion there: the outer Add (id 5) has no user. -/
example : OneUserPath exSt 3 ∧ (3, 5) ∈ exSt.nodes ∧ Possible Registry.reg exSt (.delete 5) := by
  refine ⟨?_, by decide, trivial⟩
  rintro n m d ⟨a, ha, hb⟩ _ _ _
  exfalso
  have hlt := (List.getElem?_eq_some_iff.mp ha).1
  have hlen : exSt.arena.length = 4 := rfl
  have : n = 0 ∨ n = 1 ∨ n = 2 ∨ n = 3 := by omega
  rcases this with rfl | rfl | rfl | rfl <;> (simp [exSt] at ha; subst ha; rcases hb with hb | ⟨v, hb⟩ <;> simp at hb)

/-- `C35_link_exact` and `C35_cycle_repaired` are not vacuous: linking Constant 2 to the first input of the outer Add is exact; linking the outer Add to the second input of the inner one
closes a cycle, and is undone. -/
example : step Registry.reg id 20 exSt (.link 3 5 (startAttr 5) false) = .ok { exSt with arena := exSt.arena.set 3 ⟨some 21, [], [some 1], [(some 0, 0)]⟩ } ∧
    step Registry.reg id 20 exSt (.link 5 4 (startAttr 4 + 1) false) =
      .ok { exSt with arena := (exSt.arena.set 2 ⟨some 21, [], [some 1], [(some 3, 0)]⟩).set 3 ⟨some 21, [], [none], [(some 0, 0)]⟩ } := by decide +kernel

/-- Finding: deleting a node that another node uses both directly and through a third node reads the deleted node, whatever the order of the hash table: the previews made inside the
deletion loop serialise nodes whose links have not been cleared yet (FastNoiseNodeEditor.cpp:986-1005). -/
theorem C35_delete_uaf : Session Registry.reg exSt ∧ ∀ ρ, SomeOrder ρ → ∀ fuel, 2 ≤ fuel → step Registry.reg ρ fuel exSt (.delete 2) = .ub := by
  refine ⟨ex_session, fun ρ hρ fuel hf => ?_⟩
  have key : ∀ l ∈ [((3, 5) : Nat × Nat), (2, 4), (1, 3)].permutations', step Registry.reg (fun _ => l) 2 exSt (.delete 2) = .ub := by decide +kernel
  have hnodes : (exSt.nodes.filter fun n => n.1 ≠ 0) = [(3, 5), (2, 4), (1, 3)] := by decide
  have e : step Registry.reg ρ 2 exSt (.delete 2) = .ub := by
    have h1 := key _ (List.mem_permutations'.mpr (hρ [(3, 5), (2, 4), (1, 3)]))
    have hfind : findNode exSt.nodes 2 = some 0 := by decide
    simp only [step, hfind, deleteNode, hnodes] at h1 ⊢
    exact h1
  rw [step_mono hf (by rw [e]; intro h; cases h), e]

/-- Finding: the popup of a dropped link keeps a pointer to the node the link came from; if that node is deleted before a new node is chosen, the new node is linked to a deleted node, which
is then read (FastNoiseNodeEditor.cpp:976, 1485-1486).  With undo keys or the delete key available while the popup is open this is an ordinary sequence of operations. -/
theorem C35_drop_dangling : ∀ fuel, 3 ≤ fuel →
    (∃ st, run Registry.reg id fuel [.add 0, .drop (outAttr 2), .delete 2] init = .ok st ∧ step Registry.reg id fuel st (.addDropped 21) = .ub) := by
  intro fuel hf
  refine ⟨⟨[⟨none, [], [], []⟩], [], 2, some 0⟩, ?_, ?_⟩
  · have a1 : step Registry.reg id 3 init (.add 0) = .ok ⟨[⟨some 0, [0x3f800000], [], []⟩], [(0, 2)], 2, none⟩ := by decide +kernel
    have a2 : step Registry.reg id 3 ⟨[⟨some 0, [0x3f800000], [], []⟩], [(0, 2)], 2, none⟩ (.drop (outAttr 2)) = .ok ⟨[⟨some 0, [0x3f800000], [], []⟩], [(0, 2)], 2, some 0⟩ := by decide +kernel
    have a3 : step Registry.reg id 3 ⟨[⟨some 0, [0x3f800000], [], []⟩], [(0, 2)], 2, some 0⟩ (.delete 2) = .ok ⟨[⟨none, [], [], []⟩], [], 2, some 0⟩ := by decide +kernel
    simp only [run]
    rw [step_mono hf (by rw [a1]; intro h; cases h), a1]
    simp only [Out.bind]
    rw [step_mono hf (by rw [a2]; intro h; cases h), a2]
    simp only
    rw [step_mono hf (by rw [a3]; intro h; cases h), a3]
  · have a4 : step Registry.reg id 3 ⟨[⟨none, [], [], []⟩], [], 2, some 0⟩ (.addDropped 21) = .ub := by decide +kernel
    rw [step_mono hf (by rw [a4]; intro h; cases h), a4]

/-- Two Fade nodes, the first linked to input B of the second. -/
def exFade : Ed where
  arena := [⟨some 40, [0], [none, none], [(none, 0), (none, 0xbf800000), (none, 0x3f800000)]⟩, ⟨some 40, [0], [none, some 0], [(none, 0), (none, 0xbf800000), (none, 0x3f800000)]⟩]
  nodes := [(1, 3), (0, 2)]
  counter := 3
  dropped := none

def fadeLoop : Arena := [⟨some 40, [0], [none, some 1], [(none, 0), (none, 0xbf800000), (none, 0x3f800000)]⟩, ⟨some 40, [0], [none, some 0], [(none, 0), (none, 0xbf800000), (none, 0x3f800000)]⟩]

theorem fade_deep (order : List Nat) (ho : order = [1, 0] ∨ order = [0, 1]) : ∀ fuel, preview Registry.reg order fuel 0 fadeLoop = .deep ∧ preview Registry.reg order fuel 1 fadeLoop = .deep := by
  intro fuel
  induction fuel with
  | zero => exact ⟨rfl, rfl⟩
  | succ f ih =>
    have f0 : fixOne Registry.reg 0 fadeLoop = .ok fadeLoop := by decide +kernel
    have f1 : fixOne Registry.reg 1 fadeLoop = .ok fadeLoop := by decide +kernel
    obtain ⟨i0, i1⟩ := ih
    have g0 : fadeLoop[0]? = some ⟨some 40, [0], [none, some 1], [(none, 0), (none, 0xbf800000), (none, 0x3f800000)]⟩ := rfl
    have g1 : fadeLoop[1]? = some ⟨some 40, [0], [none, some 0], [(none, 0), (none, 0xbf800000), (none, 0x3f800000)]⟩ := rfl
    constructor
    · rw [preview, f0]
      rcases ho with rfl | rfl <;> simp [Out.bind, forEach, g0, g1, links, i1]
    · rw [preview, f1]
      rcases ho with rfl | rfl <;> simp [Out.bind, forEach, g0, g1, links, i0]

/-- Finding: a link that closes a cycle between two incomplete nodes is not taken apart (serialising stops at the missing input A before it meets the cycle), and the previews recurse
without end: no recursion depth is enough. -/
theorem C35_cycle_recursion : Session Registry.reg exFade ∧ Possible Registry.reg exFade (.link 3 2 (startAttr 2 + 1) false) ∧
    ∀ ρ, SomeOrder ρ → ∀ fuel, step Registry.reg ρ fuel exFade (.link 3 2 (startAttr 2 + 1) false) = .deep := by
  refine ⟨session_run (fuel := 20) [.add 40, .add 40, .link 2 3 (startAttr 3 + 1) false] init exFade .start (by decide +kernel),
    (possible_of_check (by decide +kernel)).1, fun ρ hρ fuel => ?_⟩
  have hord : (ρ exFade.nodes).map (·.1) = [1, 0] ∨ (ρ exFade.nodes).map (·.1) = [0, 1] := by
    have h1 : ρ exFade.nodes ∈ [((1, 3) : Nat × Nat), (0, 2)].permutations' := List.mem_permutations'.mpr (hρ _)
    have h2 : [((1, 3) : Nat × Nat), (0, 2)].permutations' = [[(1, 3), (0, 2)], [(0, 2), (1, 3)]] := by decide +kernel
    rw [h2] at h1
    simp only [List.mem_cons, List.not_mem_nil, or_false] at h1
    rcases h1 with h | h <;> rw [h] <;> simp
  have e1 : findNode exFade.nodes 3 = some 1 := by decide
  have e2 : findNode exFade.nodes 2 = some 0 := by decide
  have e3 : (exFade.arena[0]?.bind fun x => getLink x (startAttr 2 + 1)) = some none := by decide +kernel
  have e4 : (exFade.arena[0]?) = some ⟨some 40, [0], [none, none], [(none, 0), (none, 0xbf800000), (none, 0x3f800000)]⟩ := rfl
  have e5 : setLink ⟨some 40, [0], [none, none], [(none, 0), (none, 0xbf800000), (none, 0x3f800000)]⟩ (startAttr 2 + 1) (some 1) =
    some ⟨some 40, [0], [none, some 1], [(none, 0), (none, 0xbf800000), (none, 0x3f800000)]⟩ := by decide +kernel
  simp only [step, e1, e2, true_or, if_true, editNode, e4, e5]
  have e6 : exFade.arena.set 0 ⟨some 40, [0], [none, some 1], [(none, 0), (none, 0xbf800000), (none, 0x3f800000)]⟩ = fadeLoop := rfl
  rw [e6, (fade_deep _ hord fuel).1]
  rfl

end FastNoise.Editor
