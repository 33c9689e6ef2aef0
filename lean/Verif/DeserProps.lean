import Verif.DeserInst
import Verif.Base64Props

/-! Properties C06, C07, C08: deserialising arbitrary bytes and arbitrary text. -/
namespace FastNoise.Deser
open FastNoise.Stream FastNoise.Ser FastNoise.Spec FastNoise.Registry

/-- Links of a list whose every node only refers to earlier nodes form no cycle. -/
theorem acyclic_of_decreasing {link : Nat → Nat → Prop} (h : ∀ p c, link p c → c < p) : Acyclic link := by
  have key : ∀ p c, Relation.TransGen link p c → c < p := by
    intro p c hpc
    induction hpc with
    | single h1 => exact h _ _ h1
    | tail _ h1 ih => exact Nat.lt_trans (h _ _ h1) ih
  intro p hp
  exact Nat.lt_irrefl _ (key p p hp)

theorem nd_links {reg : Reg} {out : List NodeData} (h : OutOK reg (KND reg) out) :
    ∀ p c, LinkND out p c → c < p := by
  rintro p c ⟨n, hn, hl⟩
  obtain ⟨id, m, hm, hk | hk⟩ := h p n hn <;>
  · obtain ⟨m', _, _, _, _, _, h6, h7⟩ := hk
    have hp := (List.getElem?_eq_some_iff.mp hn).1
    rcases hl with hl | ⟨v, hl⟩
    · have := h6 c hl; simp at this; omega
    · have := h7 c v hl; simp at this; omega

theorem fits_node_lt {reg : Reg} {out : List Gen} {k : Kind} {c : Nat} (h : Fits reg out k (.node c)) :
    c < out.length := by
  obtain ⟨g, m, h1, _⟩ := h
  exact (List.getElem?_eq_some_iff.mp h1).1

theorem gen_links {reg : Reg} {out : List Gen} (h : OutOK reg (KSN reg) out) :
    ∀ p c, LinkGen out p c → c < p := by
  rintro p c ⟨n, hn, hl⟩
  obtain ⟨id, m, hm, hk | hk⟩ := h p n hn <;>
  · obtain ⟨m', _, _, _, _, _, h6, h7, _⟩ := hk
    have hp := (List.getElem?_eq_some_iff.mp hn).1
    rcases hl with hl | ⟨v, hl⟩
    · obtain ⟨i, hi⟩ := List.getElem?_of_mem hl
      obtain ⟨k, _, hf⟩ := h7 i _ hi
      have := fits_node_lt hf; simp at this; omega
    · obtain ⟨c', e, hc⟩ := h6 _ v hl
      cases e; simp at hc; omega

theorem nd_valid {reg : Reg} {r : Nat} {out : List NodeData} (hr : r < out.length)
    (h : OutOK reg (KND reg) out) : ValidND reg r out where
  root := hr
  shape := by
    intro n hn
    obtain ⟨i, hi⟩ := List.getElem?_of_mem hn
    obtain ⟨id, m, hm, hk | hk⟩ := h i n hi <;>
    · obtain ⟨m', h1, h2, h3, h4, h5, _⟩ := hk
      exact ⟨id, m', h2, h1, h3, h4, h5⟩
  links := by
    intro p c hl
    have := nd_links h p c hl
    obtain ⟨n, hn, _⟩ := hl
    have := (List.getElem?_eq_some_iff.mp hn).1
    omega

theorem gen_valid {reg : Reg} {r : Nat} {out : List Gen} (hr : r < out.length)
    (h : OutOK reg (KSN reg) out) : ValidGen reg r out where
  root := hr
  shape := by
    intro n hn
    obtain ⟨i, hi⟩ := List.getElem?_of_mem hn
    obtain ⟨id, m, hm, hk | hk⟩ := h i n hi <;>
    · obtain ⟨m', h1, h2, h3, h4, h5, _⟩ := hk
      exact ⟨m', by rw [h2]; exact h1, h3, h4, h5⟩
  links := by
    intro p c hl
    have := gen_links h p c hl
    obtain ⟨n, hn, _⟩ := hl
    have := (List.getElem?_eq_some_iff.mp hn).1
    omega

/-! ## C06 -/

/-- **C06** Deserialising any byte vector as node data terminates without undefined behaviour (out of
bounds read of the stream, of the metadata table or of a member vector) and gives nothing or a valid
tree.  The theorem holds for every registry, in particular the shipped one. -/
theorem C06_decode_nodedata_total (reg : Reg) (bytes : List UInt8) :
    decodeND reg bytes = .null ∨ ∃ root nodes, decodeND reg bytes = .tree root nodes ∧
      ValidND reg root nodes := by
  rcases run_ok (nd_inv reg) bytes with h | ⟨r, out, h1, h2, h3⟩
  · exact Or.inl h
  · exact Or.inr ⟨r, out, h1, nd_valid h2 h3⟩

/-- **C06** The same for the decoder that creates generators, for every SIMD level request. -/
theorem C06_decode_generator_total (reg : Reg) (cd : List ClassDefaults) (hcd : CdOK reg cd) (lvl : Bool)
    (bytes : List UInt8) :
    decodeSN reg cd lvl bytes = .null ∨ ∃ root nodes, decodeSN reg cd lvl bytes = .tree root nodes ∧
      ValidGen reg root nodes := by
  rcases run_ok (sn_inv reg cd lvl hcd) bytes with h | ⟨r, out, h1, h2, h3⟩
  · exact Or.inl h
  · exact Or.inr ⟨r, out, h1, gen_valid h2 h3⟩

/-- **C06** for the public text functions: any text (a NUL-free string). -/
theorem C06_text_total (text : List UInt8) (hz : ∀ c ∈ text, c ≠ 0) (lvl : Bool) :
    (deserialiseNodeData Registry.reg text = .null ∨
      ∃ root nodes, deserialiseNodeData Registry.reg text = .tree root nodes ∧
        ValidND Registry.reg root nodes) ∧
    (newFromEncodedNodeTree Registry.reg classDefaults lvl text = .null ∨
      ∃ root nodes, newFromEncodedNodeTree Registry.reg classDefaults lvl text = .tree root nodes ∧
        ValidGen Registry.reg root nodes) := by
  obtain ⟨bytes, hb, _⟩ := Base64.C02_decode_safe text hz
  simp only [deserialiseNodeData, newFromEncodedNodeTree, hb]
  exact ⟨C06_decode_nodedata_total _ _, C06_decode_generator_total _ _ shipped_cd_ok _ _⟩

/-- Hypotheses met, and the interesting (tree) outcome reached: FractalFBm over Simplex with 5 octaves. -/
example : ∃ root nodes, decodeND Registry.reg [13, 0, 5, 0, 0, 0, 9, 6, 12] = .tree root nodes ∧
    nodes.length = 2 ∧ LinkND nodes root 0 := by
  refine ⟨1, [⟨some 6, [f100, 0, fm1, f1], [], []⟩,
    ⟨some 13, [5, f2], [some 0], [(none, f05), (none, f0)]⟩], by decide +kernel, by decide +kernel, ?_⟩
  refine ⟨{ md := some 13, vars := [5, f2], lookups := [some 0], hybrids := [(none, f05), (none, f0)] },
    by decide +kernel, Or.inl (by decide)⟩

/-- A truncated and a hostile stream: rejected. -/
example : decodeND Registry.reg [13, 0, 5, 0, 0] = .null ∧ decodeND Registry.reg [255, 255, 255] = .null ∧
    decodeND Registry.reg [200, 4] = .null := by decide +kernel

/-! ## C07 -/

/-- **C07** No deserialised node-data tree contains a cycle; every link leads to an earlier node. -/
theorem C07_nodedata_acyclic (reg : Reg) (bytes : List UInt8) (root : Nat) (nodes : List NodeData)
    (h : decodeND reg bytes = .tree root nodes) :
    (∀ p c, LinkND nodes p c → c < p) ∧ Acyclic (LinkND nodes) := by
  rcases run_ok (nd_inv reg) bytes with h' | ⟨r, out, h1, h2, h3⟩
  · unfold decodeND at h; rw [h'] at h; simp at h
  · unfold decodeND at h; rw [h1] at h; cases h
    exact ⟨nd_links h3, acyclic_of_decreasing (nd_links h3)⟩

/-- **C07** No deserialised generator tree contains a cycle. -/
theorem C07_generator_acyclic (reg : Reg) (cd : List ClassDefaults) (hcd : CdOK reg cd) (lvl : Bool)
    (bytes : List UInt8) (root : Nat) (nodes : List Gen) (h : decodeSN reg cd lvl bytes = .tree root nodes) :
    (∀ p c, LinkGen nodes p c → c < p) ∧ Acyclic (LinkGen nodes) := by
  rcases run_ok (sn_inv reg cd lvl hcd) bytes with h' | ⟨r, out, h1, h2, h3⟩
  · unfold decodeSN at h; rw [h'] at h; simp at h
  · unfold decodeSN at h; rw [h1] at h; cases h
    exact ⟨gen_links h3, acyclic_of_decreasing (gen_links h3)⟩

/-- Hypothesis met by a tree with sharing: Add( Simplex, same Simplex ), via a back reference. -/
example : ∃ nodes, decodeND Registry.reg [21, 9, 6, 4, 2, 255, 0, 0, 4] = .tree 1 nodes ∧
    LinkND nodes 1 0 := by
  refine ⟨[⟨some 6, [f100, 0, fm1, f1], [], []⟩, ⟨some 21, [], [some 0], [(some 0, f0)]⟩],
    by decide +kernel, ?_⟩
  exact ⟨{ md := some 21, vars := [], lookups := [some 0], hybrids := [(some 0, f0)] },
    by decide +kernel, Or.inl (by decide)⟩

/-! ## C08 -/

/-- **C08** (partial) Every source slot of a generator built from text is either unset or holds a source of
the required kind; a generator has either all of its sources or none; hybrid sources are nodes of the tree.
Missing from the full statement: "none" must not happen.  It does, see `C08_missing_source`. -/
theorem C08_sources_typed_partial (reg : Reg) (cd : List ClassDefaults) (hcd : CdOK reg cd) (lvl : Bool)
    (bytes : List UInt8) (root : Nat) (nodes : List Gen) (h : decodeSN reg cd lvl bytes = .tree root nodes)
    (n : Gen) (hn : n ∈ nodes) :
    ((∀ i, i < n.lookups.length → SlotOK reg nodes n i) ∨ (∀ s ∈ n.lookups, s = none)) ∧
    (∀ s v, (some s, v) ∈ n.hybrids → ∃ c, s = .node c ∧ c < nodes.length) := by
  rcases run_ok (sn_inv reg cd lvl hcd) bytes with h' | ⟨r, out, h1, h2, h3⟩
  · unfold decodeSN at h; rw [h'] at h; simp at h
  · unfold decodeSN at h; rw [h1] at h; injection h with hr ho; subst ho
    obtain ⟨p, hp⟩ := List.getElem?_of_mem hn
    obtain ⟨id, m, hm, hk⟩ := h3 p n hp
    have hsplit : out = out.take p ++ out.drop p := (List.take_append_drop p out).symm
    have hhyb : ∀ j, KSN reg id (out.take p) n j →
        (∀ s v, (some s, v) ∈ n.hybrids → ∃ c, s = .node c ∧ c < out.length) := by
      rintro j ⟨m', _, _, _, _, _, h6, _⟩ s v hs
      obtain ⟨c, e, hc⟩ := h6 s v hs
      exact ⟨c, e, by simp at hc; omega⟩
    rcases hk with hk | hk
    · refine ⟨?_, hhyb _ hk⟩
      obtain ⟨m', _, _, _, _, _, _, _, _, h9⟩ := hk
      right
      intro s hs
      obtain ⟨i, hi⟩ := List.getElem?_of_mem hs
      have := h9 i (by omega) (List.getElem?_eq_some_iff.mp hi).1
      rw [hi] at this; simpa using this
    · refine ⟨?_, hhyb _ hk⟩
      obtain ⟨m', e1, e2, _, h4, _, _, h7, h8, _⟩ := hk
      rw [hm] at e1; cases e1
      left
      intro i hi
      obtain ⟨s, hs⟩ := h8 i (by omega)
      obtain ⟨k, hk1, hk2⟩ := h7 i s hs
      exact ⟨m, k, s, by rw [e2]; exact hm, hk1, hs, by rw [hsplit]; exact Fits.mono hk2⟩

/-- **C08** a domain warp fractal never gets a source that is not a domain warp. -/
theorem C08_warp_fractal_source (bytes : List UInt8) (root : Nat) (nodes : List Gen) (lvl : Bool)
    (h : decodeSN Registry.reg classDefaults lvl bytes = .tree root nodes) (n : Gen) (hn : n ∈ nodes)
    (hid : n.id = 19 ∨ n.id = 20) (s : Src) (hs : some s ∈ n.lookups) :
    ∃ c g, s = .node c ∧ nodes[c]? = some g ∧ (g.id = 16 ∨ g.id = 17 ∨ g.id = 18) := by
  have hw : ∀ i m, Registry.reg[i]? = some m → m.isWarp = true → i = 16 ∨ i = 17 ∨ i = 18 := by
    intro i m hi hm
    have hall : ∀ j : Fin 47, ∀ m, Registry.reg[j.val]? = some m → m.isWarp = true →
        j.val = 16 ∨ j.val = 17 ∨ j.val = 18 := by
      have : ∀ j : Fin 47, (∃ m, Registry.reg[j.val]? = some m ∧ m.isWarp = true) →
          j.val = 16 ∨ j.val = 17 ∨ j.val = 18 := by
        have hd : ∀ j : Fin 47, (Registry.reg[j.val]?.map (·.isWarp)) = some true →
            j.val = 16 ∨ j.val = 17 ∨ j.val = 18 := by decide +kernel
        rintro j ⟨m, h1, h2⟩
        exact hd j (by simp [h1, h2])
      exact fun j m h1 h2 => this j ⟨m, h1, h2⟩
    have hlen : i < 47 := by
      have := (List.getElem?_eq_some_iff.mp hi).1
      have h47 : Registry.reg.length = 47 := by decide +kernel
      omega
    exact hall ⟨i, hlen⟩ m hi hm
  have hk : ∀ m (i : Nat) k, Registry.reg[n.id]? = some m → m.lookups[i]? = some k → k = .warp := by
    intro m i k hm hk
    have h19 : (Registry.reg[19]?).map (·.lookups) = some [.warp] := by decide +kernel
    have h20 : (Registry.reg[20]?).map (·.lookups) = some [.warp] := by decide +kernel
    have : m.lookups = [.warp] := by
      rcases hid with e | e
      · rw [e] at hm; rw [hm] at h19; simpa using h19
      · rw [e] at hm; rw [hm] at h20; simpa using h20
    rw [this] at hk
    exact List.mem_singleton.mp (List.mem_of_getElem? hk)
  obtain ⟨h1 | h1, _⟩ := C08_sources_typed_partial _ _ shipped_cd_ok lvl bytes root nodes h n hn
  · obtain ⟨i, hi⟩ := List.getElem?_of_mem hs
    obtain ⟨m, k, s', e1, e2, e3, e4⟩ := h1 i (List.getElem?_eq_some_iff.mp hi).1
    rw [hi] at e3; cases e3
    have := hk m i k e1 e2
    subst this
    cases s with
    | dummy => exact absurd e4 (by simp [Fits])
    | node c =>
      obtain ⟨g, mg, f1, f2, f3⟩ := e4
      exact ⟨c, g, rfl, f1, hw _ _ f2 (f3 rfl)⟩
  · have := h1 _ hs; simp at this

/-- Hypotheses met: a domain warp fractal over DomainWarpGradient over Constant. -/
example : ∃ nodes n, decodeSN Registry.reg classDefaults true [19, 9, 18, 9, 0, 20] = .tree 2 nodes ∧
    n ∈ nodes ∧ n.id = 19 ∧ some (Src.node 1) ∈ n.lookups := by
  refine ⟨[⟨0, [f1], [], []⟩, ⟨18, cWarp, [some (.node 0)], [(none, f50)]⟩,
      ⟨19, [3, f2], [some (.node 1)], [(none, f05), (none, f0)]⟩],
    ⟨19, [3, f2], [some (.node 1)], [(none, f05), (none, f0)]⟩, by decide +kernel, ?_⟩
  decide +kernel

/-- **C08** is violated by the code: the text `DQQ=` (a FractalFBm immediately followed by a node end) is
accepted and builds a fractal without its required source, which generation dereferences. -/
theorem C08_missing_source :
    newFromEncodedNodeTree Registry.reg classDefaults true [68, 81, 81, 61] =
      .tree 0 [{ id := 13, vars := [3, f2], lookups := [none], hybrids := [(none, f05), (none, f0)] }] := by
  decide +kernel

end FastNoise.Deser
