import Verif.MeshShadeSpec
import Verif.MeshVert
import Mathlib.Tactic.FieldSimp
import Mathlib.Tactic.Positivity

/-! Where the vertices of the preview lie and how bright they are: proofs. -/

namespace FastNoise.Mesh

/-! ### Position -/

theorem interp {a b iso : ℝ} (h : decide (a > iso) ≠ decide (b > iso)) : (1 - (iso - a) / (b - a)) * a + (iso - a) / (b - a) * b = iso := by
  have : b - a ≠ 0 := by
    intro h0
    have : a = b := by linarith
    rw [this] at h; exact h rfl
  field_simp
  ring

theorem add_mk (a b : V3) : a + b = ⟨a.x + b.x, a.y + b.y, a.z + b.z⟩ := rfl

theorem onEdge_of {f : I3 → ℝ} {iso : ℝ} (u : I3) (a : Axis) (q : V3) (h : air f iso u ≠ air f iso (u.next a)) (hq : q = u.along a ((iso - f u) / (f (u.next a) - f u))) : OnEdge f iso q := by
  refine ⟨u, a, _, ?_, (inter_bounds h).1, (inter_bounds h).2, hq, interp h⟩
  unfold air at h
  unfold Crosses
  rw [Ne, decide_eq_decide, gt_iff_lt, gt_iff_lt, ← not_le, ← not_le, not_iff_not] at h
  exact h

theorem edgePoint_onEdge {f : I3 → ℝ} {iso : ℝ} {v : I3} {k : Nat} (hk : k < 12) (h : crossed (gcode f iso v) k = true) :
    OnEdge f iso (edgePoint (cube f v) iso 2 0 k + v.toV) := by
  have bits := gcode_bits f iso v
  have hk' : k = 0 ∨ k = 1 ∨ k = 2 ∨ k = 3 ∨ k = 4 ∨ k = 5 ∨ k = 6 ∨ k = 7 ∨ k = 8 ∨ k = 9 ∨ k = 10 ∨ k = 11 := by omega
  obtain ⟨u, a, h1, h2⟩ : ∃ u a, air f iso u ≠ air f iso (u.next a) ∧ edgePoint (cube f v) iso 2 0 k + v.toV = u.along a ((iso - f u) / (f (u.next a) - f u)) := by
    rcases hk' with rfl | rfl | rfl | rfl | rfl | rfl | rfl | rfl | rfl | rfl | rfl | rfl <;>
      simp only [crossed, edgeEnds, List.map_cons, List.map_nil, List.getD_cons_zero, List.getD_cons_succ] at h <;>
      rw [bits _ (by norm_num), bits _ (by norm_num)] at h <;>
      simp only [nth8, List.getD_cons_zero, List.getD_cons_succ, bne_iff_ne] at h <;>
      simp only [edgePoint, Nat.zero_add, Nat.reduceAdd, Nat.reduceMul, cube]
    · refine ⟨v, .x, h, ?_⟩; simp [add_mk, I3.along, I3.toV, I3.next]; ring
    · refine ⟨⟨v.x + 1, v.y, v.z⟩, .z, h, ?_⟩; simp [add_mk, I3.along, I3.toV, I3.next]; constructor <;> ring
    · refine ⟨⟨v.x, v.y, v.z + 1⟩, .x, h, ?_⟩; simp [add_mk, I3.along, I3.toV, I3.next]; constructor <;> ring
    · refine ⟨v, .z, h, ?_⟩; simp [add_mk, I3.along, I3.toV, I3.next]; ring
    · refine ⟨⟨v.x, v.y + 1, v.z⟩, .x, h, ?_⟩; simp [add_mk, I3.along, I3.toV, I3.next]; constructor <;> ring
    · refine ⟨⟨v.x + 1, v.y + 1, v.z⟩, .z, h, ?_⟩; simp [add_mk, I3.along, I3.toV, I3.next]; refine ⟨?_, ?_, ?_⟩ <;> ring
    · refine ⟨⟨v.x, v.y + 1, v.z + 1⟩, .x, h, ?_⟩; simp [add_mk, I3.along, I3.toV, I3.next]; refine ⟨?_, ?_, ?_⟩ <;> ring
    · refine ⟨⟨v.x, v.y + 1, v.z⟩, .z, h, ?_⟩; simp [add_mk, I3.along, I3.toV, I3.next]; constructor <;> ring
    · refine ⟨v, .y, h, ?_⟩; simp [add_mk, I3.along, I3.toV, I3.next]; ring
    · refine ⟨⟨v.x + 1, v.y, v.z⟩, .y, h, ?_⟩; simp [add_mk, I3.along, I3.toV, I3.next]; constructor <;> ring
    · refine ⟨⟨v.x + 1, v.y, v.z + 1⟩, .y, h, ?_⟩; simp [add_mk, I3.along, I3.toV, I3.next]; refine ⟨?_, ?_, ?_⟩ <;> ring
    · refine ⟨⟨v.x, v.y, v.z + 1⟩, .y, h, ?_⟩; simp [add_mk, I3.along, I3.toV, I3.next]; constructor <;> ring
  exact onEdge_of u a _ h1 h2

theorem edges_some {p : Nat} (hp : p < 4096) (h : p ≠ 0) : edgesOf p ≠ [] := by
  obtain ⟨k, hk⟩ := Nat.exists_testBit_of_ne_zero h
  have hlt : k < 12 := by
    by_contra hc
    have := Nat.testBit_lt_two_pow (x := p) (i := k) (lt_of_lt_of_le (show p < 2 ^ 12 from hp) (Nat.pow_le_pow_right (by norm_num) (by omega)))
    rw [hk] at this; cases this
  apply List.ne_nil_of_mem (a := k)
  rw [edgesOf, List.mem_filter, List.mem_range]
  refine ⟨hlt, ?_⟩
  rw [bne_iff_ne]
  intro h0
  have : (p &&& 2 ^ k).testBit k = true := by rw [Nat.testBit_and, hk, Nat.testBit_two_pow_self]; rfl
  rw [h0, Nat.zero_testBit] at this; cases this

theorem sum_add (l : List Nat) (g : Nat → ℝ) (c : ℝ) (h : l ≠ []) : (l.map g).sum / (l.length : ℝ) + c = (l.map fun k => g k + c).sum / (l.length : ℝ) := by
  have e : (l.map fun k => g k + c).sum = (l.map g).sum + l.length * c := by
    clear h
    induction l with
    | nil => simp
    | cons a l ih => simp only [List.map_cons, List.sum_cons, ih, List.length_cons]; push_cast; ring
  have : (l.length : ℝ) ≠ 0 := by
    rw [Ne, Nat.cast_eq_zero, List.length_eq_zero_iff]; exact h
  rw [e]; field_simp

theorem gpos_mean {f : I3 → ℝ} {iso : ℝ} {v : I3} {k : Nat} (h : gpoint f iso v k ≠ 0) :
    ∃ L : List V3, L ≠ [] ∧ (∀ q ∈ L, OnEdge f iso q ∧ InCell v q) ∧ gpos f iso v (gpoint f iso v k) = mean L := by
  have hlt : gpoint f iso v k < 4096 := pointCode_lt _ _
  have hne : edgesOf (gpoint f iso v k) ≠ [] := edges_some hlt h
  have hcr : ∀ j ∈ edgesOf (gpoint f iso v k), j < 12 ∧ crossed (gcode f iso v) j = true := by
    intro j hj
    rw [edgesOf, List.mem_filter, List.mem_range] at hj
    refine ⟨hj.1, ?_⟩
    rw [gpoint_eq] at hj
    exact pointCode_crossed hj.1 (by simpa using hj.2)
  refine ⟨(edgesOf (gpoint f iso v k)).map fun j => edgePoint (cube f v) iso 2 0 j + v.toV, by simpa using hne, ?_, ?_⟩
  · intro q hq
    obtain ⟨j, hj, rfl⟩ := List.mem_map.mp hq
    refine ⟨edgePoint_onEdge (hcr j hj).1 (hcr j hj).2, ?_⟩
    have hu := edgePoint_unit (hcr j hj).1 (hcr j hj).2
    rw [add_mk]
    unfold InUnit at hu
    unfold InCell
    simp only [I3.toV]
    refine ⟨⟨?_, ?_⟩, ⟨?_, ?_⟩, ⟨?_, ?_⟩⟩ <;> linarith [hu.1.1, hu.1.2, hu.2.1.1, hu.2.1.2, hu.2.2.1, hu.2.2.2]
  · unfold gpos vert mean
    simp only [List.map_map, List.length_map, add_mk]
    have key : ∀ P : V3 → ℝ, (∀ a b, P (a + b) = P a + P b) → P ⟨0, 0, 0⟩ = 0 →
        P (((edgesOf (gpoint f iso v k)).map (edgePoint (cube f v) iso 2 0)).foldl (· + ·) ⟨0, 0, 0⟩) / ((edgesOf (gpoint f iso v k)).length : ℝ) + P v.toV =
        ((edgesOf (gpoint f iso v k)).map fun j => P (edgePoint (cube f v) iso 2 0 j) + P v.toV).sum / ((edgesOf (gpoint f iso v k)).length : ℝ) := by
      intro P hP h0
      rw [foldl_bounds P hP, h0, zero_add, List.map_map]
      exact sum_add _ (fun j => P (edgePoint (cube f v) iso 2 0 j)) _ hne
    have kx := key V3.x (fun _ _ => rfl) rfl
    have ky := key V3.y (fun _ _ => rfl) rfl
    have kz := key V3.z (fun _ _ => rfl) rfl
    simp only [add_mk] at kx ky kz
    rw [kx, ky, kz]
    rfl

/-! ### Brightness -/

theorem derivative_quarter (d : Nat → ℝ) (c step s1 s2 : Nat) (v v1 v2 : ℝ) (hv : 0 ≤ v ∧ v ≤ 1) (h1 : 0 ≤ v1 ∧ v1 ≤ 1) (h2 : 0 ≤ v2 ∧ v2 ≤ 1) (A B C : Nat → Nat → ℝ)
    (h : ∀ i j t : Nat, i ≤ 1 → j ≤ 1 → t ≤ 3 → d (c + (i * s1 + j * s2) + t * step - step) = A i j + B i j * ((t : ℝ) - 1) + C i j * ((t : ℝ) - 1) ^ 2) :
    derivative d c step v (quarter s1 s2 v1 v2) = -((1 - v1) * (1 - v2) * (B 0 0 + 2 * C 0 0 * v) + v1 * (1 - v2) * (B 1 0 + 2 * C 1 0 * v) +
      (1 - v1) * v2 * (B 0 1 + 2 * C 0 1 * v) + v1 * v2 * (B 1 1 + 2 * C 1 1 * v)) := by
  have key : ∀ i j m : Nat, i ≤ 1 → j ≤ 1 → m = i * s1 + j * s2 →
      lerp (d (c + m + derivOffset step v - step) - d (c + m + derivOffset step v)) (d (c + m + derivOffset step v) - d (c + m + derivOffset step v + step)) (Int.fract (v + 1 / 2)) =
        -(B i j + 2 * C i j * v) := by
    intro i j m hi hj hm
    obtain ⟨o, ho, eo, ef⟩ : ∃ o : Nat, o ≤ 1 ∧ derivOffset step v = o * step ∧ Int.fract (v + 1 / 2) = v + 1 / 2 - o := by
      by_cases hh : v < 1 / 2
      · refine ⟨0, by omega, by rw [derivOffset, if_pos hh, Nat.zero_mul], ?_⟩
        rw [Int.fract_eq_iff]; exact ⟨by push_cast; linarith [hv.1], by push_cast; linarith, 0, by push_cast; ring⟩
      · refine ⟨1, le_refl _, by rw [derivOffset, if_neg hh, Nat.one_mul], ?_⟩
        rw [Int.fract_eq_iff]; exact ⟨by push_cast; linarith, by push_cast; linarith [hv.2], 1, by push_cast; ring⟩
    rw [eo, ef, hm]
    have e0 := h i j o hi hj (by omega)
    have e1 := h i j (o + 1) hi hj (by omega)
    have e2 := h i j (o + 2) hi hj (by omega)
    rw [show c + (i * s1 + j * s2) + (o + 1) * step - step = c + (i * s1 + j * s2) + o * step by rw [Nat.add_mul, one_mul]; omega] at e1
    rw [show c + (i * s1 + j * s2) + (o + 2) * step - step = c + (i * s1 + j * s2) + o * step + step by rw [Nat.add_mul, Nat.two_mul]; omega] at e2
    rw [e0, e1, e2]
    unfold lerp
    push_cast
    ring
  unfold derivative quarter
  simp only [List.map_cons, List.map_nil, List.sum_cons, List.sum_nil]
  rw [key 0 0 0 (by omega) (by omega) (by ring), key 1 0 s1 (by omega) (by omega) (by ring), key 0 1 s2 (by omega) (by omega) (by ring), key 1 1 (s1 + s2) (by omega) (by omega) (by ring)]
  rw [abs_of_nonneg h1.1, abs_of_nonneg h2.1, abs_of_nonpos (by linarith : v1 - 1 ≤ 0), abs_of_nonpos (by linarith : v2 - 1 ≤ 0)]
  ring

theorem light_shade (d : Nat → ℝ) (S c : Nat) (v g : V3) (hx : derivative d c 1 v.x (quarter S (S * S) v.y v.z) = -g.x)
    (hy : derivative d c S v.y (quarter 1 (S * S) v.x v.z) = -g.y) (hz : derivative d c (S * S) v.z (quarter 1 S v.x v.y) = -g.z) : light d S c v = brightness g := by
  have hb := (light_bounds d S c v).2
  unfold light at hb ⊢
  simp only [hx, hy, hz, neg_sq] at hb ⊢
  unfold brightness
  have h0 : √(g.x ^ 2 + g.y ^ 2 + g.z ^ 2) = 0 ↔ g = ⟨0, 0, 0⟩ := by
    rw [Real.sqrt_eq_zero (by positivity)]
    constructor
    · intro h
      have a : g.x ^ 2 = 0 := by nlinarith [sq_nonneg g.x, sq_nonneg g.y, sq_nonneg g.z]
      have b : g.y ^ 2 = 0 := by nlinarith [sq_nonneg g.x, sq_nonneg g.y, sq_nonneg g.z]
      have c : g.z ^ 2 = 0 := by nlinarith [sq_nonneg g.x, sq_nonneg g.y, sq_nonneg g.z]
      ext
      · exact pow_eq_zero_iff two_ne_zero |>.mp a
      · exact pow_eq_zero_iff two_ne_zero |>.mp b
      · exact pow_eq_zero_iff two_ne_zero |>.mp c
    · rintro rfl; simp
  by_cases h : g = ⟨0, 0, 0⟩
  · rw [if_pos (h0.mpr h), if_pos h]
  · have hn : √(g.x ^ 2 + g.y ^ 2 + g.z ^ 2) ≠ 0 := fun e => h (h0.mp e)
    rw [if_neg hn, if_neg h]
    have hd : √((0.6 : ℝ) ^ 2 + 1 ^ 2 + 0.4 ^ 2) ≠ 0 := by
      rw [Real.sqrt_ne_zero (by norm_num)]; norm_num
    have u1 := unit_of (x := -0.6) (y := -1) (z := -0.4) (l := √((0.6 : ℝ) ^ 2 + 1 ^ 2 + 0.4 ^ 2)) (by norm_num) hd
    have u2 := unit_of (x := -g.x) (y := -g.y) (z := -g.z) (l := √(g.x ^ 2 + g.y ^ 2 + g.z ^ 2)) (by simp) hn
    have hdot := dot_bounds _ _ _ _ _ _ u1 u2
    generalize √((0.6 : ℝ) ^ 2 + 1 ^ 2 + 0.4 ^ 2) = D at *
    generalize √(g.x ^ 2 + g.y ^ 2 + g.z ^ 2) = G at *
    have e : -0.6 / D * (-g.x / G) + -1 / D * (-g.y / G) + -0.4 / D * (-g.z / G) = (0.6 * g.x + 1 * g.y + 0.4 * g.z) / (D * G) := by
      field_simp
    rw [e] at hdot ⊢
    generalize (0.6 * g.x + 1 * g.y + 0.4 * g.z) / (D * G) = t at *
    rw [min_eq_right]
    · norm_num; ring
    · norm_num; nlinarith [hdot.1, hdot.2]

theorem light_poly (b : Build) (P : Poly) (hf : ∀ v : I3, field b v = P.eval v.toV) {S x y z : Nat} (h : Inner S x y z) (v : V3) (hv : InUnit v) :
    light (density b S (-2)) S (idx S x y z) v = brightness (P.grad (v + (⟨b.pos.x + x - 2, b.pos.y + y - 2, b.pos.z + z - 2⟩ : I3).toV)) := by
  obtain ⟨x1, y1, z1, x2, y2, z2⟩ := h
  obtain ⟨x, rfl⟩ : ∃ x', x = x' + 1 := ⟨x - 1, by omega⟩
  obtain ⟨y, rfl⟩ : ∃ x', y = x' + 1 := ⟨y - 1, by omega⟩
  obtain ⟨z, rfl⟩ : ∃ x', z = x' + 1 := ⟨z - 1, by omega⟩
  have e : ∀ n i j k : Nat, i ≤ 3 → j ≤ 3 → k ≤ 3 → n = idx S (x + i) (y + j) (z + k) →
      density b S (-2) n = P.eval ⟨(b.pos.x : ℝ) + x - 2 + i, (b.pos.y : ℝ) + y - 2 + j, (b.pos.z : ℝ) + z - 2 + k⟩ := by
    rintro n i j k hi hj hk rfl
    rw [density_eq, latt_idx b (-2) (by omega) (by omega), hf]
    congr 1
    ext <;> simp only [I3.toV] <;> push_cast <;> ring
  obtain ⟨X, hX⟩ : ∃ X : ℝ, X = (b.pos.x : ℝ) + x - 2 := ⟨_, rfl⟩
  obtain ⟨Y, hY⟩ : ∃ X : ℝ, X = (b.pos.y : ℝ) + y - 2 := ⟨_, rfl⟩
  obtain ⟨Z, hZ⟩ : ∃ X : ℝ, X = (b.pos.z : ℝ) + z - 2 := ⟨_, rfl⟩
  rw [← hX, ← hY, ← hZ] at e
  have hw : v + (⟨b.pos.x + (x + 1 : Nat) - 2, b.pos.y + (y + 1 : Nat) - 2, b.pos.z + (z + 1 : Nat) - 2⟩ : I3).toV = ⟨v.x + X + 1, v.y + Y + 1, v.z + Z + 1⟩ := by
    rw [add_mk, hX, hY, hZ]
    ext <;> simp only [I3.toV] <;> push_cast <;> ring
  rw [hw]
  apply light_shade
  · rw [derivative_quarter _ _ 1 S (S * S) v.x v.y v.z hv.1 hv.2.1 hv.2.2 (fun i j => P.eval ⟨X + 1, Y + 1 + i, Z + 1 + j⟩)
      (fun i j => (P.grad ⟨X + 1, Y + 1 + i, Z + 1 + j⟩).x) (fun _ _ => P.xx)]
    · simp only [Poly.grad]; push_cast; ring
    · intro i j t hi hj ht
      rw [e _ t (1 + i) (1 + j) (by omega) (by omega) (by omega) (by
        apply Nat.sub_eq_of_eq_add; unfold idx; ring)]
      simp only [Poly.eval, Poly.grad]; push_cast; ring
  · rw [derivative_quarter _ _ S 1 (S * S) v.y v.x v.z hv.2.1 hv.1 hv.2.2 (fun i j => P.eval ⟨X + 1 + i, Y + 1, Z + 1 + j⟩)
      (fun i j => (P.grad ⟨X + 1 + i, Y + 1, Z + 1 + j⟩).y) (fun _ _ => P.yy)]
    · simp only [Poly.grad]; push_cast; ring
    · intro i j t hi hj ht
      rw [e _ (1 + i) t (1 + j) (by omega) (by omega) (by omega) (by
        apply Nat.sub_eq_of_eq_add; unfold idx; ring)]
      simp only [Poly.eval, Poly.grad]; push_cast; ring
  · rw [derivative_quarter _ _ (S * S) 1 S v.z v.x v.y hv.2.2 hv.1 hv.2.1 (fun i j => P.eval ⟨X + 1 + i, Y + 1 + j, Z + 1⟩)
      (fun i j => (P.grad ⟨X + 1 + i, Y + 1 + j, Z + 1⟩).z) (fun _ _ => P.zz)]
    · simp only [Poly.grad]; push_cast; ring
    · intro i j t hi hj ht
      rw [e _ (1 + i) (1 + j) t (by omega) (by omega) (by omega) (by
        apply Nat.sub_eq_of_eq_add; unfold idx; ring)]
      simp only [Poly.eval, Poly.grad]; push_cast; ring

end FastNoise.Mesh
