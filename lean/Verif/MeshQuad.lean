import Verif.MeshCode

/-! The quad of one lattice edge and the loops over a chunk. -/

namespace FastNoise.Mesh

theorem mk_sub (a b : V3) : a - b = ⟨a.x - b.x, a.y - b.y, a.z - b.z⟩ := rfl

theorem getVert_sub (b : Build) {S x y z : Nat} (hx : 2 ≤ x) (hy : 2 ≤ y) (hz : 2 ≤ z) (hx' : x + 2 < S) (hy' : y + 2 < S) (hz' : z + 2 < S)
    {st : Verts} (hs : VInv b S st) (k : Nat) {v : I3} (hv : v = ⟨b.pos.x + x - 2, b.pos.y + y - 2, b.pos.z + z - 2⟩)
    {ox oy oz dc : Nat} {dv : V3} (h1 : ox ≤ 1) (h2 : oy ≤ 1) (h3 : oz ≤ 1) (hdc : dc = ox + oy * S + oz * (S * S)) (hdv : dv = ⟨ox, oy, oz⟩)
    (hne : gpoint (field b) b.iso ⟨v.x - ox, v.y - oy, v.z - oz⟩ k ≠ 0) :
    ∃ i st', getVert (density b S (-2)) b.iso S st (idx S x y z - dc) (2 ^ k) (v.toV - dv) = some (i, st') ∧ VInv b S st' ∧ Grows st st' ∧
      ∃ l, st'.data[i]? = some (gpos (field b) b.iso ⟨v.x - ox, v.y - oy, v.z - oz⟩
        (gpoint (field b) b.iso ⟨v.x - ox, v.y - oy, v.z - oz⟩ k), l) := by
  obtain ⟨x', rfl⟩ : ∃ x', x = x' + ox := ⟨x - ox, by omega⟩
  obtain ⟨y', rfl⟩ : ∃ x', y = x' + oy := ⟨y - oy, by omega⟩
  obtain ⟨z', rfl⟩ : ∃ x', z = x' + oz := ⟨z - oz, by omega⟩
  have e : idx S (x' + ox) (y' + oy) (z' + oz) - dc = idx S x' y' z' := by
    apply Nat.sub_eq_of_eq_add
    rw [hdc]; unfold idx; ring
  have ev : (⟨v.x - ox, v.y - oy, v.z - oz⟩ : I3) = ⟨b.pos.x + x' - 2, b.pos.y + y' - 2, b.pos.z + z' - 2⟩ := by
    rw [hv]; ext <;> simp only <;> push_cast <;> ring
  rw [ev] at hne
  rw [e, ev]
  refine getVert_spec b ⟨by omega, by omega, by omega, by omega, by omega, by omega⟩ hs k _ ?_ hne
  rw [hv, hdv, mk_sub]
  ext <;> simp only [I3.toV] <;> push_cast <;> ring

/-- The four cells around a lattice edge: number of the edge in the cell, offset of the cell. -/
def around : Axis → List (Nat × I3)
  | .x => [(0, ⟨0, 0, 0⟩), (2, ⟨0, 0, 1⟩), (4, ⟨0, 1, 0⟩), (6, ⟨0, 1, 1⟩)]
  | .y => [(8, ⟨0, 0, 0⟩), (9, ⟨1, 0, 0⟩), (11, ⟨0, 0, 1⟩), (10, ⟨1, 0, 1⟩)]
  | .z => [(3, ⟨0, 0, 0⟩), (7, ⟨0, 1, 0⟩), (1, ⟨1, 0, 0⟩), (5, ⟨1, 1, 0⟩)]

/-- The position of the dual point of cell `v - o` on edge `k`. -/
noncomputable def dualAt (f : I3 → ℝ) (iso : ℝ) (v : I3) (e : Nat × I3) : V3 :=
  gpos f iso ⟨v.x - e.2.x, v.y - e.2.y, v.z - e.2.z⟩ (gpoint f iso ⟨v.x - e.2.x, v.y - e.2.y, v.z - e.2.z⟩ e.1)

theorem getVerts_spec (b : Build) {S x y z : Nat} (hx : 2 ≤ x) (hy : 2 ≤ y) (hz : 2 ≤ z) (hx' : x + 2 < S) (hy' : y + 2 < S) (hz' : z + 2 < S)
    {v : I3} (hv : v = ⟨b.pos.x + x - 2, b.pos.y + y - 2, b.pos.z + z - 2⟩) (l : List (Nat × Nat × V3)) (m : List (Nat × I3))
    (hlm : List.Forall₂ (fun e o => ∃ ox oy oz : Nat, ox ≤ 1 ∧ oy ≤ 1 ∧ oz ≤ 1 ∧
      e = (2 ^ o.1, ox + oy * S + oz * (S * S), (⟨ox, oy, oz⟩ : V3)) ∧ o.2 = ⟨ox, oy, oz⟩) l m) (hne : ∀ o ∈ m, gpoint (field b) b.iso ⟨v.x - o.2.x, v.y - o.2.y, v.z - o.2.z⟩ o.1 ≠ 0) :
    ∀ {st : Verts}, VInv b S st →
    ∃ is st', getVerts (density b S (-2)) b.iso S (idx S x y z) v.toV l st = some (is, st') ∧ VInv b S st' ∧ Grows st st' ∧
      List.Forall₂ (fun i o => ∃ li, st'.data[i]? = some (dualAt (field b) b.iso v o, li)) is m := by
  induction hlm with
  | nil => intro st hs; exact ⟨[], st, rfl, hs, Grows.refl st, .nil⟩
  | @cons e o l m he _ ih =>
    intro st hs
    obtain ⟨ox, oy, oz, h1, h2, h3, rfl, ho⟩ := he
    obtain ⟨i, st1, hg, hv1, hgr, li, hd⟩ := getVert_sub b hx hy hz hx' hy' hz' hs o.1 hv h1 h2 h3 rfl (rfl : (⟨ox, oy, oz⟩ : V3) = _)
      (by have := hne o (List.mem_cons_self ..); rw [ho] at this; exact this)
    obtain ⟨is, st2, hg2, hv2, hgr2, hall⟩ := ih (fun o h => hne o (List.mem_cons_of_mem _ h)) hv1
    refine ⟨i :: is, st2, ?_, hv2, hgr.trans hgr2, .cons ⟨li, ?_⟩ hall⟩
    · simp only [getVerts]
      rw [hg]; simp only [Option.bind_some]; rw [hg2]; rfl
    · rw [hgr2.get hd]; unfold dualAt; rw [ho]

/-- The lattice edge is crossed in each of the four cells around it. -/
theorem around_crossed {f : I3 → ℝ} {iso : ℝ} {v : I3} {ax : Axis} (h : Crosses f iso v ax) :
    ∀ o ∈ around ax, o.1 < 12 ∧ crossed (gcode f iso ⟨v.x - o.2.x, v.y - o.2.y, v.z - o.2.z⟩) o.1 = true := by
  have hd : air f iso v ≠ air f iso (v.next ax) := by
    unfold Crosses at h; unfold air
    rw [Ne, decide_eq_decide, gt_iff_lt, gt_iff_lt, ← not_le, ← not_le, not_iff_not]
    exact h
  intro o ho
  cases ax <;> simp only [around, List.mem_cons, List.not_mem_nil, or_false] at ho <;> rcases ho with rfl | rfl | rfl | rfl <;>
  · refine ⟨by norm_num, ?_⟩
    simp only [crossed, edgeEnds, List.map_cons, List.map_nil, List.getD_cons_zero, List.getD_cons_succ]
    rw [gcode_bits _ _ _ _ (by norm_num), gcode_bits _ _ _ _ (by norm_num)]
    simpa only [nth8, List.getD_cons_zero, List.getD_cons_succ, bne_iff_ne, sub_zero, sub_add_cancel, I3.next] using hd

theorem around_ne {f : I3 → ℝ} {iso : ℝ} {v : I3} {ax : Axis} (h : Crosses f iso v ax) :
    ∀ o ∈ around ax, gpoint f iso ⟨v.x - o.2.x, v.y - o.2.y, v.z - o.2.z⟩ o.1 ≠ 0 :=
  fun o ho => gpoint_ne (around_crossed h o ho).1 (around_crossed h o ho).2

theorem quad_around (S : Nat) (ax : Axis) : List.Forall₂ (fun (e : Nat × Nat × V3) (o : Nat × I3) => ∃ ox oy oz : Nat, ox ≤ 1 ∧ oy ≤ 1 ∧ oz ≤ 1 ∧
      e = (2 ^ o.1, ox + oy * S + oz * (S * S), (⟨ox, oy, oz⟩ : V3)) ∧ o.2 = ⟨ox, oy, oz⟩) (quadCells S ax) (around ax) := by
  have key : ∀ (k ox oy oz dc : Nat) (dv : V3) (o : I3), ox ≤ 1 → oy ≤ 1 → oz ≤ 1 → dc = ox + oy * S + oz * (S * S) → dv = ⟨ox, oy, oz⟩ → o = ⟨ox, oy, oz⟩ →
      ∃ ox oy oz : Nat, ox ≤ 1 ∧ oy ≤ 1 ∧ oz ≤ 1 ∧
      ((2 ^ k, dc, dv) : Nat × Nat × V3) = (2 ^ (k, o).1, ox + oy * S + oz * (S * S), (⟨ox, oy, oz⟩ : V3)) ∧ (k, o).2 = ⟨ox, oy, oz⟩ := by
    intro k ox oy oz dc dv o h1 h2 h3 h4 h5 h6
    exact ⟨ox, oy, oz, h1, h2, h3, by rw [h4, h5], h6⟩
  cases ax
  · refine .cons (key _ 0 0 0 _ _ _ ?_ ?_ ?_ ?_ ?_ ?_) (.cons (key _ 0 0 1 _ _ _ ?_ ?_ ?_ ?_ ?_ ?_) (.cons (key _ 0 1 0 _ _ _ ?_ ?_ ?_ ?_ ?_ ?_)
      (.cons (key _ 0 1 1 _ _ _ ?_ ?_ ?_ ?_ ?_ ?_) .nil))) <;> simp
  · refine .cons (key _ 0 0 0 _ _ _ ?_ ?_ ?_ ?_ ?_ ?_) (.cons (key _ 1 0 0 _ _ _ ?_ ?_ ?_ ?_ ?_ ?_) (.cons (key _ 0 0 1 _ _ _ ?_ ?_ ?_ ?_ ?_ ?_)
      (.cons (key _ 1 0 1 _ _ _ ?_ ?_ ?_ ?_ ?_ ?_) .nil))) <;> simp
  · refine .cons (key _ 0 0 0 _ _ _ ?_ ?_ ?_ ?_ ?_ ?_) (.cons (key _ 0 1 0 _ _ _ ?_ ?_ ?_ ?_ ?_ ?_) (.cons (key _ 1 0 0 _ _ _ ?_ ?_ ?_ ?_ ?_ ?_)
      (.cons (key _ 1 1 0 _ _ _ ?_ ?_ ?_ ?_ ?_ ?_) .nil))) <;> simp

/-- Loop invariant. -/
def Good (b : Build) (S : Nat) (st : Verts × List Nat) : Prop := VInv b S st.1 ∧ WellFormed (st.1.data, st.2)

/-- Corner positions of the quad, as the triangle list has them. -/
def quadOf {α : Type} (q : Nat → α) (f r : Nat) : List α := [q f, q (3 - r), q (2 - f), q (3 - f), q r, q (1 + f)]

/-- Positions of the four corners of the quad of an edge. -/
noncomputable def qpos (f : I3 → ℝ) (iso : ℝ) (v : I3) (ax : Axis) (i : Nat) : V3 := dualAt f iso v ((around ax).getD i (0, ⟨0, 0, 0⟩))

open Classical in
/-- What is appended for the lattice edge. -/
def QuadAt (f : I3 → ℝ) (iso : ℝ) (v : I3) (ax : Axis) (T : List V3) : Prop :=
  if Crosses f iso v ax then ∃ r, (r = 0 ∨ r = 2) ∧ T = quadOf (qpos f iso v ax) (if f v < f (v.next ax) then 2 else 0) r else T = []

theorem cornersOf_grows {d d' : List (V3 × ℝ)} {l : List Nat} (h : ∀ i ∈ l, i < d.length) (hg : ∃ e, d' = d ++ e) :
    cornersOf (d', l) = cornersOf (d, l) := by
  obtain ⟨e, rfl⟩ := hg
  unfold cornersOf
  induction l with
  | nil => rfl
  | cons a l ih =>
    simp only [List.filterMap_cons, List.mem_cons, forall_eq_or_imp] at *
    rw [ih h.2, List.getElem?_append_left h.1]

theorem addQuad_spec (b : Build) {S x y z : Nat} (hx : 2 ≤ x) (hy : 2 ≤ y) (hz : 2 ≤ z) (hx' : x + 2 < S) (hy' : y + 2 < S) (hz' : z + 2 < S)
    {v : I3} (hv : v = ⟨b.pos.x + x - 2, b.pos.y + y - 2, b.pos.z + z - 2⟩) (ax : Axis) {st : Verts × List Nat} (hs : Good b S st) :
    ∃ st', addQuad (density b S (-2)) b.iso S (idx S x y z) v.toV ax st = some st' ∧ Good b S st' ∧
      ∃ T, cornersOf (st'.1.data, st'.2) = cornersOf (st.1.data, st.2) ++ T ∧ QuadAt (field b) b.iso v ax T := by
  have d0 : density b S (-2) (idx S x y z) = field b v := by
    rw [density_eq, latt_idx b (-2) (by omega) (by omega), hv]; rfl
  have estep : ∃ x1 y1 z1, idx S x y z + ax.step S = idx S x1 y1 z1 ∧ x1 < S ∧ y1 < S ∧ z1 < S ∧
      (⟨b.pos.x + x1 + -2, b.pos.y + y1 + -2, b.pos.z + z1 + -2⟩ : I3) = v.next ax := by
    cases ax
    · refine ⟨x + 1, y, z, by unfold idx Axis.step; ring, by omega, by omega, by omega, ?_⟩
      rw [hv]; ext <;> simp only [I3.next] <;> push_cast <;> ring
    · refine ⟨x, y + 1, z, by unfold idx Axis.step; ring, by omega, by omega, by omega, ?_⟩
      rw [hv]; ext <;> simp only [I3.next] <;> push_cast <;> ring
    · refine ⟨x, y, z + 1, by unfold idx Axis.step; ring, by omega, by omega, by omega, ?_⟩
      rw [hv]; ext <;> simp only [I3.next] <;> push_cast <;> ring
  obtain ⟨x1, y1, z1, e1, hx1, hy1, hz1, hn⟩ := estep
  have d1 : density b S (-2) (idx S x y z + ax.step S) = field b (v.next ax) := by
    rw [density_eq, e1, latt_idx b (-2) hx1 hy1, hn]
  have hread : Readable (S * S * S) [((idx S x y z : Nat) : ℤ), ((idx S x y z + ax.step S : Nat) : ℤ)] := by
    intro i hi
    simp only [List.mem_cons, List.not_mem_nil, or_false] at hi
    rcases hi with rfl | rfl
    · exact readable_idx rfl (by omega) (by omega) (by omega)
    · rw [e1]; exact readable_idx rfl hx1 hy1 hz1
  unfold addQuad
  rw [if_pos hread]
  simp only [d0, d1]
  by_cases hc : Crosses (field b) b.iso v ax
  · rw [if_pos (by unfold Crosses at hc; simpa [ne_eq, eq_iff_iff] using hc)]
    obtain ⟨is, st', hg, hv', hgr, hall⟩ := getVerts_spec b hx hy hz hx' hy' hz' hv (quadCells S ax) (around ax) (quad_around S ax) (around_ne hc) hs.1
    rw [hg]
    simp only [Option.bind_some]
    obtain ⟨i0, i1, i2, i3, rfl, h0, h1, h2, h3⟩ : ∃ i0 i1 i2 i3, is = [i0, i1, i2, i3] ∧ (∃ l, st'.data[i0]? = some (qpos (field b) b.iso v ax 0, l)) ∧
        (∃ l, st'.data[i1]? = some (qpos (field b) b.iso v ax 1, l)) ∧ (∃ l, st'.data[i2]? = some (qpos (field b) b.iso v ax 2, l)) ∧
        (∃ l, st'.data[i3]? = some (qpos (field b) b.iso v ax 3, l)) := by
      unfold qpos
      cases ax <;>
      · simp only [around] at hall ⊢
        rcases hall with _ | ⟨h0, _ | ⟨h1, _ | ⟨h2, _ | ⟨h3, ⟨⟩⟩⟩⟩⟩
        exact ⟨_, _, _, _, rfl, h0, h1, h2, h3⟩
    obtain ⟨l0, h0⟩ := h0
    obtain ⟨l1, h1⟩ := h1
    obtain ⟨l2, h2⟩ := h2
    obtain ⟨l3, h3⟩ := h3
    simp only [List.getD_cons_zero, List.getD_cons_succ, h0, h1, h2, h3]
    refine ⟨_, rfl, ⟨hv', ?_⟩, ?_⟩
    · have b0 := (List.getElem?_eq_some_iff.mp h0).1
      have b1 := (List.getElem?_eq_some_iff.mp h1).1
      have b2 := (List.getElem?_eq_some_iff.mp h2).1
      have b3 := (List.getElem?_eq_some_iff.mp h3).1
      obtain ⟨e, he⟩ := hgr
      constructor
      · intro i hi
        rcases List.mem_append.mp hi with hi | hi
        · have := hs.2.1 i hi
          simp only at this ⊢
          rw [he, List.length_append]; omega
        · simp only [triangles] at hi
          split at hi <;> split at hi <;> simp at hi <;> rcases hi with rfl | rfl | rfl | rfl | rfl | rfl <;> assumption
      · have := hs.2.2
        simp only [triangles, List.length_append, List.length_cons, List.length_nil] at this ⊢
        omega
    · refine ⟨quadOf (qpos (field b) b.iso v ax) (if field b v < field b (v.next ax) then 2 else 0) (if |l0 - l3| > |l1 - l2| then 2 else 0), ?_, ?_⟩
      · have e1 := cornersOf_grows (l := st.2) hs.2.1 hgr
        have e2 : ∀ l l' : List Nat, cornersOf (st'.data, l ++ l') = cornersOf (st'.data, l) ++ cornersOf (st'.data, l') := by
          intro l l'; unfold cornersOf; simp [List.filterMap_append]
        rw [e2, e1]
        congr 1
        unfold cornersOf
        split <;> split <;> simp [triangles, quadOf, h0, h1, h2, h3]
      · unfold QuadAt; rw [if_pos hc]
        refine ⟨_, ?_, rfl⟩
        split
        · right; rfl
        · left; rfl
  · rw [if_neg (by unfold Crosses at hc; simpa [ne_eq, eq_iff_iff] using hc)]
    exact ⟨st, rfl, hs, [], by simp, by unfold QuadAt; rw [if_neg hc]⟩

end FastNoise.Mesh
