import Verif.MeshVert
import Mathlib.Algebra.BigOperators.Finprod
import Mathlib.Tactic.LinearCombination

/-! The surface is closed: signed sums over directed edges vanish. -/

namespace FastNoise.Mesh

/-- 1 for solid, 0 for air. -/
def bsol (c : Bool) : ℤ := if c then 0 else 1

/-- 1 for solid, 0 for air. -/
noncomputable def sol (f : I3 → ℝ) (iso : ℝ) (v : I3) : ℤ := bsol (air f iso v)

theorem face_zero (H : Nat → Nat → ℤ) : ∀ (c0 c1 c2 c3 : Bool) (a0 a1 a2 a3 b0 b1 b2 b3 : Nat),
    Paired c0 c1 c2 c3 a0 a1 a2 a3 = true → Paired c0 c1 c2 c3 b0 b1 b2 b3 = true →
    (bsol c1 - bsol c0) * H a0 b0 + (bsol c2 - bsol c1) * H a1 b1 +
      (bsol c3 - bsol c2) * H a2 b2 + (bsol c0 - bsol c3) * H a3 b3 = 0 := by
  intro c0 c1 c2 c3 a0 a1 a2 a3 b0 b1 b2 b3 ha hb
  cases c0 <;> cases c1 <;> cases c2 <;> cases c3 <;>
    simp only [Paired, Bool.and_eq_true, beq_iff_eq] at ha hb <;> simp [ha, hb, bsol]

/-- Antisymmetric weight of a directed edge. -/
def Anti (G : V3 → V3 → ℤ) : Prop := ∀ a b, G a b = - G b a

/-- Sum of the weights of directed edges. -/
def wsum (G : V3 → V3 → ℤ) (e : List (V3 × V3)) : ℤ := (e.map fun p => G p.1 p.2).sum

theorem directedEdges_append : ∀ (l l' : List V3), 3 ∣ l.length → directedEdges (l ++ l') = directedEdges l ++ directedEdges l'
  | [], l', _ => by simp [directedEdges]
  | [_], _, h => by simp at h
  | [_, _], _, h => by simp at h
  | a :: b :: c :: r, l', h => by
    have : 3 ∣ r.length := by simp only [List.length_cons] at h; omega
    simp only [List.cons_append, directedEdges, directedEdges_append r l' this]

/-- The weight of the boundary of a quad. -/
def loop (G : V3 → V3 → ℤ) (q : Nat → V3) : ℤ := G (q 0) (q 1) + G (q 1) (q 3) + G (q 3) (q 2) + G (q 2) (q 0)

theorem crosses_iff (f : I3 → ℝ) (iso : ℝ) (v : I3) (a : Axis) : Crosses f iso v a ↔ sol f iso (v.next a) ≠ sol f iso v := by
  unfold Crosses sol air bsol
  by_cases h1 : iso < f v <;> by_cases h2 : iso < f (v.next a) <;> simp [h1, h2, ← not_lt]

theorem quad_wsum {G : V3 → V3 → ℤ} (hG : Anti G) {f : I3 → ℝ} {iso : ℝ} {v : I3} {a : Axis} {T : List V3} (h : QuadAt f iso v a T) :
    3 ∣ T.length ∧ wsum G (directedEdges T) = (sol f iso (v.next a) - sol f iso v) * loop G (qpos f iso v a) := by
  unfold QuadAt at h
  by_cases hc : Crosses f iso v a
  · rw [if_pos hc] at h
    obtain ⟨r, hr, rfl⟩ := h
    refine ⟨by simp [quadOf], ?_⟩
    generalize qpos f iso v a = q
    have a1 := hG (q 0) (q 3); have a2 := hG (q 1) (q 2); have a3 := hG (q 0) (q 1); have a4 := hG (q 1) (q 3)
    have a5 := hG (q 3) (q 2); have a6 := hG (q 2) (q 0)
    unfold Crosses at hc
    by_cases hlt : f v < f (v.next a)
    · have e1 : f v ≤ iso := by
        by_contra h'; apply hc; push Not at h'
        exact ⟨fun h => absurd h (not_le.mpr h'), fun h => absurd h (not_le.mpr (h'.trans hlt))⟩
      have e2 : ¬ f (v.next a) ≤ iso := fun h' => hc ⟨fun _ => h', fun _ => e1⟩
      have s1 : sol f iso v = 1 := by simp [sol, bsol, air, e1]
      have s2 : sol f iso (v.next a) = 0 := by
        have : iso < f (v.next a) := not_le.mp e2
        simp [sol, bsol, air, this]
      rw [if_pos hlt, s1, s2]
      rcases hr with rfl | rfl <;> simp [quadOf, directedEdges, wsum, loop] <;> linarith
    · have hle : f (v.next a) ≤ f v := not_lt.mp hlt
      have e1 : f (v.next a) ≤ iso := by
        by_contra h'; apply hc; push Not at h'
        exact ⟨fun h => absurd h (not_le.mpr (lt_of_lt_of_le h' hle)), fun h => absurd h (not_le.mpr h')⟩
      have e2 : ¬ f v ≤ iso := fun h' => hc ⟨fun _ => e1, fun _ => h'⟩
      have s1 : sol f iso (v.next a) = 1 := by simp [sol, bsol, air, e1]
      have s2 : sol f iso v = 0 := by
        have : iso < f v := not_le.mp e2
        simp [sol, bsol, air, this]
      rw [if_neg hlt, s1, s2]
      rcases hr with rfl | rfl <;> simp [quadOf, directedEdges, wsum, loop] <;> linarith
  · rw [if_neg hc] at h
    subst h
    rw [crosses_iff, not_not] at hc
    rw [hc]
    simp [directedEdges, wsum]

/-- Weight of the quad of a lattice edge. -/
noncomputable def term (G : V3 → V3 → ℤ) (f : I3 → ℝ) (iso : ℝ) (v : I3) (a : Axis) : ℤ :=
  (sol f iso (v.next a) - sol f iso v) * loop G (qpos f iso v a)

theorem wsum_append (G : V3 → V3 → ℤ) (e e' : List (V3 × V3)) : wsum G (e ++ e') = wsum G e + wsum G e' := by
  simp [wsum]

theorem assembled_wsum {G : V3 → V3 → ℤ} (hG : Anti G) {f : I3 → ℝ} {iso : ℝ} {l : List (I3 × Axis)} {T : List V3} (h : Assembled f iso l T) :
    3 ∣ T.length ∧ wsum G (directedEdges T) = (l.map fun p => term G f iso p.1 p.2).sum := by
  induction h with
  | nil => simp [directedEdges, wsum]
  | snoc _ hq ih =>
    obtain ⟨h1, h2⟩ := quad_wsum hG hq
    refine ⟨by rw [List.length_append]; exact dvd_add ih.1 h1, ?_⟩
    rw [directedEdges_append _ _ ih.1, wsum_append, ih.2, h2]
    simp [term]

/-! ### Rearranging by faces -/

/-- Position of the dual point of edge `k` in cell `v`. -/
noncomputable def P (f : I3 → ℝ) (iso : ℝ) (v : I3) (k : Nat) : V3 := gpos f iso v (gpoint f iso v k)

theorem paired_of (f : I3 → ℝ) (iso : ℝ) (v : I3) :
    let a := air f iso; let p := gpoint f iso v
    Paired (a v) (a ⟨v.x, v.y + 1, v.z⟩) (a ⟨v.x, v.y + 1, v.z + 1⟩) (a ⟨v.x, v.y, v.z + 1⟩) (p 8) (p 7) (p 11) (p 3) = true ∧
    Paired (a ⟨v.x + 1, v.y, v.z⟩) (a ⟨v.x + 1, v.y + 1, v.z⟩) (a ⟨v.x + 1, v.y + 1, v.z + 1⟩) (a ⟨v.x + 1, v.y, v.z + 1⟩) (p 9) (p 5) (p 10) (p 1) = true ∧
    Paired (a v) (a ⟨v.x, v.y, v.z + 1⟩) (a ⟨v.x + 1, v.y, v.z + 1⟩) (a ⟨v.x + 1, v.y, v.z⟩) (p 3) (p 2) (p 1) (p 0) = true ∧
    Paired (a ⟨v.x, v.y + 1, v.z⟩) (a ⟨v.x, v.y + 1, v.z + 1⟩) (a ⟨v.x + 1, v.y + 1, v.z + 1⟩) (a ⟨v.x + 1, v.y + 1, v.z⟩) (p 7) (p 6) (p 5) (p 4) = true ∧
    Paired (a v) (a ⟨v.x + 1, v.y, v.z⟩) (a ⟨v.x + 1, v.y + 1, v.z⟩) (a ⟨v.x, v.y + 1, v.z⟩) (p 0) (p 9) (p 4) (p 8) = true ∧
    Paired (a ⟨v.x, v.y, v.z + 1⟩) (a ⟨v.x + 1, v.y, v.z + 1⟩) (a ⟨v.x + 1, v.y + 1, v.z + 1⟩) (a ⟨v.x, v.y + 1, v.z + 1⟩) (p 2) (p 10) (p 6) (p 11) = true := by
  have h := table_faces (air f iso v) (air f iso ⟨v.x + 1, v.y, v.z⟩) (air f iso ⟨v.x, v.y + 1, v.z⟩) (air f iso ⟨v.x + 1, v.y + 1, v.z⟩)
    (air f iso ⟨v.x, v.y, v.z + 1⟩) (air f iso ⟨v.x + 1, v.y, v.z + 1⟩) (air f iso ⟨v.x, v.y + 1, v.z + 1⟩) (air f iso ⟨v.x + 1, v.y + 1, v.z + 1⟩)
  simp only [facesPaired, Bool.and_eq_true] at h
  obtain ⟨⟨⟨⟨⟨h1, h2⟩, h3⟩, h4⟩, h5⟩, h6⟩ := h
  simp only [gpoint_eq]
  exact ⟨h1, h2, h3, h4, h5, h6⟩

/-- One side of a quad, weighted. -/
noncomputable def piece (G : V3 → V3 → ℤ) (f : I3 → ℝ) (iso : ℝ) (a : Axis) (i j : Nat) (v : I3) : ℤ :=
  (sol f iso (v.next a) - sol f iso v) * G (qpos f iso v a i) (qpos f iso v a j)

theorem term_pieces (G : V3 → V3 → ℤ) (f : I3 → ℝ) (iso : ℝ) (a : Axis) (v : I3) :
    term G f iso v a = piece G f iso a 0 1 v + piece G f iso a 1 3 v + piece G f iso a 3 2 v + piece G f iso a 2 0 v := by
  unfold term piece loop; ring

theorem zface {G : V3 → V3 → ℤ} (hG : Anti G) (f : I3 → ℝ) (iso : ℝ) (u : I3) :
    piece G f iso .x 0 1 u + piece G f iso .y 1 3 (u.next .x) + piece G f iso .x 3 2 (u.next .y) + piece G f iso .y 2 0 u = 0 := by
  obtain ⟨x, y, z⟩ := u
  have hA := (paired_of f iso ⟨x, y, z⟩).2.2.2.2.1
  have hB := (paired_of f iso ⟨x, y, z - 1⟩).2.2.2.2.2
  simp only [sub_add_cancel] at hA hB
  have := face_zero (fun a b => G (gpos f iso ⟨x, y, z⟩ a) (gpos f iso ⟨x, y, z - 1⟩ b)) _ _ _ _ _ _ _ _ _ _ _ _ hA hB
  simp only [piece, qpos, dualAt, around, I3.next, List.getD_cons_zero, List.getD_cons_succ, sub_zero, add_sub_cancel_right, sol]
  rw [hG (gpos f iso ⟨x, y, z - 1⟩ (gpoint f iso ⟨x, y, z - 1⟩ 6)), hG (gpos f iso ⟨x, y, z - 1⟩ (gpoint f iso ⟨x, y, z - 1⟩ 11))]
  linear_combination this

theorem xface {G : V3 → V3 → ℤ} (hG : Anti G) (f : I3 → ℝ) (iso : ℝ) (u : I3) :
    piece G f iso .y 0 1 u + piece G f iso .z 1 3 (u.next .y) + piece G f iso .y 3 2 (u.next .z) + piece G f iso .z 2 0 u = 0 := by
  obtain ⟨x, y, z⟩ := u
  have hA := (paired_of f iso ⟨x, y, z⟩).1
  have hB := (paired_of f iso ⟨x - 1, y, z⟩).2.1
  simp only [sub_add_cancel] at hA hB
  have := face_zero (fun a b => G (gpos f iso ⟨x, y, z⟩ a) (gpos f iso ⟨x - 1, y, z⟩ b)) _ _ _ _ _ _ _ _ _ _ _ _ hA hB
  simp only [piece, qpos, dualAt, around, I3.next, List.getD_cons_zero, List.getD_cons_succ, sub_zero, add_sub_cancel_right, sol]
  rw [hG (gpos f iso ⟨x - 1, y, z⟩ (gpoint f iso ⟨x - 1, y, z⟩ 10)), hG (gpos f iso ⟨x - 1, y, z⟩ (gpoint f iso ⟨x - 1, y, z⟩ 1))]
  linear_combination this

theorem yface {G : V3 → V3 → ℤ} (hG : Anti G) (f : I3 → ℝ) (iso : ℝ) (u : I3) :
    piece G f iso .z 0 1 u + piece G f iso .x 1 3 (u.next .z) + piece G f iso .z 3 2 (u.next .x) + piece G f iso .x 2 0 u = 0 := by
  obtain ⟨x, y, z⟩ := u
  have hA := (paired_of f iso ⟨x, y, z⟩).2.2.1
  have hB := (paired_of f iso ⟨x, y - 1, z⟩).2.2.2.1
  simp only [sub_add_cancel] at hA hB
  have := face_zero (fun a b => G (gpos f iso ⟨x, y, z⟩ a) (gpos f iso ⟨x, y - 1, z⟩ b)) _ _ _ _ _ _ _ _ _ _ _ _ hA hB
  simp only [piece, qpos, dualAt, around, I3.next, List.getD_cons_zero, List.getD_cons_succ, sub_zero, add_sub_cancel_right, sol]
  rw [hG (gpos f iso ⟨x, y - 1, z⟩ (gpoint f iso ⟨x, y - 1, z⟩ 5)), hG (gpos f iso ⟨x, y - 1, z⟩ (gpoint f iso ⟨x, y - 1, z⟩ 4))]
  linear_combination this

/-- Moving along an axis is a bijection of the lattice. -/
def nextEquiv (a : Axis) : I3 ≃ I3 where
  toFun v := v.next a
  invFun v := match a with
    | .x => ⟨v.x - 1, v.y, v.z⟩
    | .y => ⟨v.x, v.y - 1, v.z⟩
    | .z => ⟨v.x, v.y, v.z - 1⟩
  left_inv v := by cases a <;> simp [I3.next]
  right_inv v := by cases a <;> simp [I3.next]

theorem finsum_next (g : I3 → ℤ) (a : Axis) : ∑ᶠ v, g v = ∑ᶠ v : I3, g (v.next a) := (finsum_comp_equiv (nextEquiv a)).symm

/-- If only finitely many sides have weight, the total weight is zero. -/
theorem total_zero {G : V3 → V3 → ℤ} (hG : Anti G) (f : I3 → ℝ) (iso : ℝ)
    (hfin : ∀ a i j, (Function.support (piece G f iso a i j)).Finite) :
    ∑ᶠ v, (term G f iso v .x + term G f iso v .y + term G f iso v .z) = 0 := by
  have sh : ∀ a i j b, (Function.support fun v : I3 => piece G f iso a i j (v.next b)).Finite := fun a i j b =>
    (hfin a i j).preimage (nextEquiv b).injective.injOn
  have add4 : ∀ g1 g2 g3 g4 : I3 → ℤ, g1.support.Finite → g2.support.Finite → g3.support.Finite → g4.support.Finite →
      ∑ᶠ v, (g1 v + g2 v + g3 v + g4 v) = ∑ᶠ v, g1 v + ∑ᶠ v, g2 v + ∑ᶠ v, g3 v + ∑ᶠ v, g4 v ∧ (Function.support fun v => g1 v + g2 v + g3 v + g4 v).Finite := by
    intro g1 g2 g3 g4 h1 h2 h3 h4
    have h12 : (Function.support fun v => g1 v + g2 v).Finite := (h1.union h2).subset (Function.support_add _ _)
    have h123 : (Function.support fun v => g1 v + g2 v + g3 v).Finite := (h12.union h3).subset (Function.support_add _ _)
    have h1234 : (Function.support fun v => g1 v + g2 v + g3 v + g4 v).Finite := (h123.union h4).subset (Function.support_add _ _)
    exact ⟨by rw [finsum_add_distrib h123 h4, finsum_add_distrib h12 h3, finsum_add_distrib h1 h2], h1234⟩
  have tx : ∀ a, ∑ᶠ v, term G f iso v a = ∑ᶠ v, piece G f iso a 0 1 v + ∑ᶠ v, piece G f iso a 1 3 v + ∑ᶠ v, piece G f iso a 3 2 v +
      ∑ᶠ v, piece G f iso a 2 0 v ∧ (Function.support fun v => term G f iso v a).Finite := by
    intro a
    simp only [term_pieces]
    exact add4 _ _ _ _ (hfin _ _ _) (hfin _ _ _) (hfin _ _ _) (hfin _ _ _)
  have hxy : (Function.support fun v => term G f iso v .x + term G f iso v .y).Finite := ((tx .x).2.union (tx .y).2).subset (Function.support_add _ _)
  rw [finsum_add_distrib hxy (tx .z).2, finsum_add_distrib (tx .x).2 (tx .y).2, (tx .x).1, (tx .y).1, (tx .z).1]
  have z1 := (add4 _ _ _ _ (hfin .x 0 1) (sh .y 1 3 .x) (sh .x 3 2 .y) (hfin .y 2 0)).1
  have z2 := (add4 _ _ _ _ (hfin .y 0 1) (sh .z 1 3 .y) (sh .y 3 2 .z) (hfin .z 2 0)).1
  have z3 := (add4 _ _ _ _ (hfin .z 0 1) (sh .x 1 3 .z) (sh .z 3 2 .x) (hfin .x 2 0)).1
  simp only [zface hG, xface hG, yface hG, finsum_zero] at z1 z2 z3
  rw [finsum_next (piece G f iso .y 1 3) .x, finsum_next (piece G f iso .x 3 2) .y, finsum_next (piece G f iso .z 1 3) .y,
    finsum_next (piece G f iso .y 3 2) .z, finsum_next (piece G f iso .x 1 3) .z, finsum_next (piece G f iso .z 3 2) .x]
  linarith

end FastNoise.Mesh
