import Verif.MeshWorld

/-! Each quad stands for one crossed lattice edge and faces the air. -/

namespace FastNoise.Mesh

theorem qpos_cell (f : I3 → ℝ) (iso : ℝ) (v : I3) (ax : Axis) (i : Nat) :
    let o := ((around ax).getD i (0, ⟨0, 0, 0⟩)).2
    InCell ⟨v.x - o.x, v.y - o.y, v.z - o.z⟩ (qpos f iso v ax i) := by
  intro o
  have h := gpos_cell f iso ⟨v.x - o.x, v.y - o.y, v.z - o.z⟩ ((around ax).getD i (0, ⟨0, 0, 0⟩)).1
  rw [mk_sub] at h
  obtain ⟨⟨h1, h2⟩, ⟨h3, h4⟩, ⟨h5, h6⟩⟩ := h
  simp only [I3.toV] at h1 h2 h3 h4 h5 h6
  have e : qpos f iso v ax i = gpos f iso ⟨v.x - o.x, v.y - o.y, v.z - o.z⟩
      (gpoint f iso ⟨v.x - o.x, v.y - o.y, v.z - o.z⟩ ((around ax).getD i (0, ⟨0, 0, 0⟩)).1) := rfl
  rw [e]
  refine ⟨⟨?_, ?_⟩, ⟨?_, ?_⟩, ⟨?_, ?_⟩⟩ <;> simp only <;> linarith

theorem around_cellAt (v : I3) (ax : Axis) (i : Nat) :
    let o := ((around ax).getD i (0, ⟨0, 0, 0⟩)).2
    CellAt v ax ⟨v.x - o.x, v.y - o.y, v.z - o.z⟩ := by
  cases ax <;> rcases i with _ | _ | _ | _ | i <;> simp [around, CellAt]

theorem cellAt_around {v : I3} {ax : Axis} {u : I3} (h : CellAt v ax u) :
    ∃ i < 4, let o := ((around ax).getD i (0, ⟨0, 0, 0⟩)).2; u = ⟨v.x - o.x, v.y - o.y, v.z - o.z⟩ := by
  obtain ⟨ux, uy, uz⟩ := u
  obtain ⟨h1, h2, h3⟩ := h
  simp only at h1 h2 h3
  cases ax
  · rcases h1 with rfl | ⟨_, h⟩
    · rcases h2 with rfl | ⟨rfl, _⟩ <;> rcases h3 with rfl | ⟨rfl, _⟩
      · exact ⟨0, by omega, by simp [around]⟩
      · exact ⟨1, by omega, by simp [around]⟩
      · exact ⟨2, by omega, by simp [around]⟩
      · exact ⟨3, by omega, by simp [around]⟩
    · exact absurd rfl h
  · rcases h2 with rfl | ⟨_, h⟩
    · rcases h1 with rfl | ⟨rfl, _⟩ <;> rcases h3 with rfl | ⟨rfl, _⟩
      · exact ⟨0, by omega, by simp [around]⟩
      · exact ⟨2, by omega, by simp [around]⟩
      · exact ⟨1, by omega, by simp [around]⟩
      · exact ⟨3, by omega, by simp [around]⟩
    · exact absurd rfl h
  · rcases h3 with rfl | ⟨_, h⟩
    · rcases h1 with rfl | ⟨rfl, _⟩ <;> rcases h2 with rfl | ⟨rfl, _⟩
      · exact ⟨0, by omega, by simp [around]⟩
      · exact ⟨1, by omega, by simp [around]⟩
      · exact ⟨2, by omega, by simp [around]⟩
      · exact ⟨3, by omega, by simp [around]⟩
    · exact absurd rfl h

/-- The area of the loop 0 1 3 2. -/
noncomputable def area (a : Axis) (q : Nat → V3) : ℝ := facing a (q 0) (q 3) (q 2) + facing a (q 3) (q 0) (q 1)

theorem quadOf_area (a : Axis) (q : Nat → V3) :
    facing a (q 0) (q 3) (q 2) + facing a (q 3) (q 0) (q 1) = area a q ∧ facing a (q 0) (q 1) (q 2) + facing a (q 3) (q 2) (q 1) = area a q ∧
    facing a (q 2) (q 3) (q 0) + facing a (q 1) (q 0) (q 3) = - area a q ∧ facing a (q 2) (q 1) (q 0) + facing a (q 1) (q 2) (q 3) = - area a q := by
  unfold area
  refine ⟨rfl, ?_, ?_, ?_⟩ <;> (cases a <;> (simp only [facing]; ring))

theorem cross4 {y0 z0 y1 z1 y2 z2 y3 z3 : ℝ} (a0 : 0 ≤ y0) (b0 : 0 ≤ z0) (a1 : 0 ≤ y1) (b1 : z1 ≤ 0) (a2 : y2 ≤ 0) (b2 : 0 ≤ z2) (a3 : y3 ≤ 0) (b3 : z3 ≤ 0) :
    (y0 * z1 - z0 * y1) + (y1 * z3 - z1 * y3) + (y3 * z2 - z3 * y2) + (y2 * z0 - z2 * y0) ≤ 0 := by
  have h1 := mul_nonpos_of_nonneg_of_nonpos a0 b1
  have h2 := mul_nonneg b0 a1
  have h3 := mul_nonpos_of_nonneg_of_nonpos a1 b3
  have h4 := mul_nonneg_of_nonpos_of_nonpos b1 a3
  have h5 := mul_nonpos_of_nonpos_of_nonneg a3 b2
  have h6 := mul_nonneg_of_nonpos_of_nonpos b3 a2
  have h7 := mul_nonpos_of_nonpos_of_nonneg a2 b0
  have h8 := mul_nonneg b2 a0
  linarith

theorem area_nonpos (f : I3 → ℝ) (iso : ℝ) (v : I3) (a : Axis) : area a (qpos f iso v a) ≤ 0 := by
  have c0 := qpos_cell f iso v a 0
  have c1 := qpos_cell f iso v a 1
  have c2 := qpos_cell f iso v a 2
  have c3 := qpos_cell f iso v a 3
  generalize qpos f iso v a = q at c0 c1 c2 c3
  cases a
  · simp only [around, List.getD_cons_zero, List.getD_cons_succ, InCell, sub_zero] at c0 c1 c2 c3
    push_cast at c0 c1 c2 c3
    have := cross4 (y0 := (q 0).y - v.y) (z0 := (q 0).z - v.z) (y1 := (q 1).y - v.y) (z1 := (q 1).z - v.z) (y2 := (q 2).y - v.y) (z2 := (q 2).z - v.z)
      (y3 := (q 3).y - v.y) (z3 := (q 3).z - v.z) (by linarith) (by linarith) (by linarith) (by linarith) (by linarith) (by linarith) (by linarith) (by linarith)
    unfold area; simp only [facing]; linarith
  · simp only [around, List.getD_cons_zero, List.getD_cons_succ, InCell, sub_zero] at c0 c1 c2 c3
    push_cast at c0 c1 c2 c3
    have := cross4 (y0 := (q 0).z - v.z) (z0 := (q 0).x - v.x) (y1 := (q 1).z - v.z) (z1 := (q 1).x - v.x) (y2 := (q 2).z - v.z) (z2 := (q 2).x - v.x)
      (y3 := (q 3).z - v.z) (z3 := (q 3).x - v.x) (by linarith) (by linarith) (by linarith) (by linarith) (by linarith) (by linarith) (by linarith) (by linarith)
    unfold area; simp only [facing]; linarith
  · simp only [around, List.getD_cons_zero, List.getD_cons_succ, InCell, sub_zero] at c0 c1 c2 c3
    push_cast at c0 c1 c2 c3
    have := cross4 (y0 := (q 0).x - v.x) (z0 := (q 0).y - v.y) (y1 := (q 1).x - v.x) (z1 := (q 1).y - v.y) (y2 := (q 2).x - v.x) (z2 := (q 2).y - v.y)
      (y3 := (q 3).x - v.x) (z3 := (q 3).y - v.y) (by linarith) (by linarith) (by linarith) (by linarith) (by linarith) (by linarith) (by linarith) (by linarith)
    unfold area; simp only [facing]; linarith

theorem quad_isQuad {f : I3 → ℝ} {iso : ℝ} {v : I3} {a : Axis} {T : List V3} (hc : Crosses f iso v a) (h : QuadAt f iso v a T) : IsQuad f iso v a T := by
  unfold QuadAt at h
  rw [if_pos hc] at h
  obtain ⟨r, hr, rfl⟩ := h
  have hA := area_nonpos f iso v a
  obtain ⟨e1, e2, e3, e4⟩ := quadOf_area a (qpos f iso v a)
  have hcell : ∀ i, ∃ u, CellAt v a u ∧ InCell u (qpos f iso v a i) := fun i => ⟨_, around_cellAt v a i, qpos_cell f iso v a i⟩
  have hcell' : ∀ u, CellAt v a u → ∃ i < 4, InCell u (qpos f iso v a i) := by
    intro u hu
    obtain ⟨i, hi, rfl⟩ := cellAt_around hu
    exact ⟨i, hi, qpos_cell f iso v a i⟩
  have hsol : (f v < f (v.next a)) ↔ f v ≤ iso := by
    unfold Crosses at hc
    constructor
    · intro hlt
      by_contra h'; apply hc; push Not at h'
      exact ⟨fun h => absurd h (not_le.mpr h'), fun h => absurd h (not_le.mpr (h'.trans hlt))⟩
    · intro h1
      have h2 : ¬ f (v.next a) ≤ iso := fun h' => hc ⟨fun _ => h', fun _ => h1⟩
      linarith [not_le.mp h2]
  by_cases hs : f v ≤ iso
  · rw [if_pos (hsol.mpr hs)]
    rcases hr with rfl | rfl
    · refine ⟨_, _, _, _, _, _, rfl, ?_, ?_, Or.inr ⟨rfl, rfl⟩, ?_⟩
      · intro p hp
        simp only [quadOf, List.mem_cons, List.not_mem_nil, or_false] at hp
        rcases hp with rfl | rfl | rfl | rfl | rfl | rfl <;> exact hcell _
      · intro u hu
        obtain ⟨i, hi, h⟩ := hcell' u hu
        refine ⟨_, ?_, h⟩
        have : i = 0 ∨ i = 1 ∨ i = 2 ∨ i = 3 := by omega
        rcases this with rfl | rfl | rfl | rfl <;> simp [quadOf]
      · rw [if_pos hs]; show 0 ≤ facing a (qpos f iso v a 2) (qpos f iso v a 3) (qpos f iso v a 0) + facing a (qpos f iso v a 1) (qpos f iso v a 0) (qpos f iso v a 3)
        rw [e3]; linarith
    · refine ⟨_, _, _, _, _, _, rfl, ?_, ?_, Or.inl ⟨rfl, rfl⟩, ?_⟩
      · intro p hp
        simp only [quadOf, List.mem_cons, List.not_mem_nil, or_false] at hp
        rcases hp with rfl | rfl | rfl | rfl | rfl | rfl <;> exact hcell _
      · intro u hu
        obtain ⟨i, hi, h⟩ := hcell' u hu
        refine ⟨_, ?_, h⟩
        have : i = 0 ∨ i = 1 ∨ i = 2 ∨ i = 3 := by omega
        rcases this with rfl | rfl | rfl | rfl <;> simp [quadOf]
      · rw [if_pos hs]; show 0 ≤ facing a (qpos f iso v a 2) (qpos f iso v a 1) (qpos f iso v a 0) + facing a (qpos f iso v a 1) (qpos f iso v a 2) (qpos f iso v a 3)
        rw [e4]; linarith
  · rw [if_neg (fun h => hs (hsol.mp h))]
    rcases hr with rfl | rfl
    · refine ⟨_, _, _, _, _, _, rfl, ?_, ?_, Or.inl ⟨rfl, rfl⟩, ?_⟩
      · intro p hp
        simp only [quadOf, List.mem_cons, List.not_mem_nil, or_false] at hp
        rcases hp with rfl | rfl | rfl | rfl | rfl | rfl <;> exact hcell _
      · intro u hu
        obtain ⟨i, hi, h⟩ := hcell' u hu
        refine ⟨_, ?_, h⟩
        have : i = 0 ∨ i = 1 ∨ i = 2 ∨ i = 3 := by omega
        rcases this with rfl | rfl | rfl | rfl <;> simp [quadOf]
      · rw [if_neg hs]; show facing a (qpos f iso v a 0) (qpos f iso v a 3) (qpos f iso v a 2) + facing a (qpos f iso v a 3) (qpos f iso v a 0) (qpos f iso v a 1) ≤ 0
        rw [e1]; exact hA
    · refine ⟨_, _, _, _, _, _, rfl, ?_, ?_, Or.inr ⟨rfl, rfl⟩, ?_⟩
      · intro p hp
        simp only [quadOf, List.mem_cons, List.not_mem_nil, or_false] at hp
        rcases hp with rfl | rfl | rfl | rfl | rfl | rfl <;> exact hcell _
      · intro u hu
        obtain ⟨i, hi, h⟩ := hcell' u hu
        refine ⟨_, ?_, h⟩
        have : i = 0 ∨ i = 1 ∨ i = 2 ∨ i = 3 := by omega
        rcases this with rfl | rfl | rfl | rfl <;> simp [quadOf]
      · rw [if_neg hs]; show facing a (qpos f iso v a 0) (qpos f iso v a 1) (qpos f iso v a 2) + facing a (qpos f iso v a 3) (qpos f iso v a 2) (qpos f iso v a 1) ≤ 0
        rw [e2]; exact hA

open Classical in
theorem assembled_quads {f : I3 → ℝ} {iso : ℝ} {l : List (I3 × Axis)} {T : List V3} (h : Assembled f iso l T) :
    ∃ quads : List ((I3 × Axis) × List V3), T = quads.flatMap Prod.snd ∧ quads.map Prod.fst = l.filter (fun e => Crosses f iso e.1 e.2) ∧
      ∀ Q ∈ quads, IsQuad f iso Q.1.1 Q.1.2 Q.2 := by
  induction h with
  | nil => exact ⟨[], rfl, rfl, by simp⟩
  | @snoc l T v a T' _ hq ih =>
    obtain ⟨quads, h1, h2, h3⟩ := ih
    by_cases hc : Crosses f iso v a
    · refine ⟨quads ++ [((v, a), T')], by simp [h1], by simp [h2, hc], ?_⟩
      intro Q hQ
      rcases List.mem_append.mp hQ with hQ | hQ
      · exact h3 Q hQ
      · rw [List.mem_singleton] at hQ; rw [hQ]; exact quad_isQuad hc hq
    · unfold QuadAt at hq
      rw [if_neg hc] at hq
      exact ⟨quads, by simp [h1, hq], by simp [h2, hc], h3⟩

end FastNoise.Mesh
