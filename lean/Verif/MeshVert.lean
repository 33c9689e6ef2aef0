import Verif.MeshChunk

/-! A dual vertex lies in its cell. -/

namespace FastNoise.Mesh

theorem inter_bounds {a b iso : ℝ} (h : decide (a > iso) ≠ decide (b > iso)) : 0 ≤ (iso - a) / (b - a) ∧ (iso - a) / (b - a) ≤ 1 := by
  rcases lt_or_ge iso a with ha | ha <;> rcases lt_or_ge iso b with hb | hb
  · exact absurd (by rw [decide_eq_true ha, decide_eq_true hb]) h
  · have h1 : (iso - a) / (b - a) = (a - iso) / (a - b) := by rw [← neg_div_neg_eq]; ring_nf
    rw [h1]
    exact ⟨div_nonneg (by linarith) (by linarith), (div_le_one (by linarith)).mpr (by linarith)⟩
  · exact ⟨div_nonneg (by linarith) (by linarith), (div_le_one (by linarith)).mpr (by linarith)⟩
  · exact absurd (by rw [decide_eq_false (not_lt.mpr ha), decide_eq_false (not_lt.mpr hb)]) h

/-- In the unit cube. -/
def InUnit (v : V3) : Prop := (0 ≤ v.x ∧ v.x ≤ 1) ∧ (0 ≤ v.y ∧ v.y ≤ 1) ∧ (0 ≤ v.z ∧ v.z ≤ 1)

theorem edgePoint_unit {f : I3 → ℝ} {iso : ℝ} {v : I3} {k : Nat} (hk : k < 12) (h : crossed (gcode f iso v) k = true) :
    InUnit (edgePoint (cube f v) iso 2 0 k) := by
  have bits := gcode_bits f iso v
  have hk' : k = 0 ∨ k = 1 ∨ k = 2 ∨ k = 3 ∨ k = 4 ∨ k = 5 ∨ k = 6 ∨ k = 7 ∨ k = 8 ∨ k = 9 ∨ k = 10 ∨ k = 11 := by omega
  rcases hk' with rfl | rfl | rfl | rfl | rfl | rfl | rfl | rfl | rfl | rfl | rfl | rfl <;>
  · simp only [crossed, edgeEnds, List.map_cons, List.map_nil, List.getD_cons_zero, List.getD_cons_succ] at h
    rw [bits _ (by norm_num), bits _ (by norm_num)] at h
    simp only [nth8, List.getD_cons_zero, List.getD_cons_succ, air, bne_iff_ne] at h
    have hb := inter_bounds h
    simp only [InUnit, edgePoint, Nat.zero_add, Nat.reduceAdd, Nat.reduceMul, cube]
    refine ⟨?_, ?_, ?_⟩ <;> first | exact hb | norm_num

theorem foldl_bounds (P : V3 → ℝ) (hP : ∀ a b, P (a + b) = P a + P b) (l : List V3) (s : V3) :
    P (l.foldl (· + ·) s) = P s + (l.map P).sum := by
  induction l generalizing s with
  | nil => simp
  | cons a l ih => rw [List.foldl_cons, ih, hP, List.map_cons, List.sum_cons]; ring

theorem mean_unit (l : List ℝ) (h : ∀ t ∈ l, 0 ≤ t ∧ t ≤ 1) : 0 ≤ l.sum / (l.length : ℝ) ∧ l.sum / (l.length : ℝ) ≤ 1 := by
  have h0 : 0 ≤ l.sum := List.sum_nonneg (fun t ht => (h t ht).1)
  have h1 : l.sum ≤ l.length := by
    induction l with
    | nil => simp
    | cons a l ih =>
      have h2 := ih (fun t ht => h t (List.mem_cons_of_mem _ ht)) (List.sum_nonneg (fun t ht => (h t (List.mem_cons_of_mem _ ht)).1))
      have h3 := (h a (List.mem_cons_self ..)).2
      rw [List.sum_cons, List.length_cons]; push_cast; linarith
  exact ⟨div_nonneg h0 (Nat.cast_nonneg _), div_le_one_of_le₀ h1 (Nat.cast_nonneg _)⟩

theorem vert_unit (f : I3 → ℝ) (iso : ℝ) (v : I3) (k : Nat) : InUnit (vert (cube f v) iso 2 0 (gpoint f iso v k)) := by
  have hall : ∀ q ∈ (edgesOf (gpoint f iso v k)).map (edgePoint (cube f v) iso 2 0), InUnit q := by
    intro q hq
    obtain ⟨j, hj, rfl⟩ := List.mem_map.mp hq
    rw [edgesOf, List.mem_filter, List.mem_range] at hj
    refine edgePoint_unit hj.1 ?_
    rw [gpoint_eq] at hj
    exact pointCode_crossed hj.1 (by simpa using hj.2)
  have key : ∀ P : V3 → ℝ, (∀ a b, P (a + b) = P a + P b) → P ⟨0, 0, 0⟩ = 0 → (∀ q, InUnit q → 0 ≤ P q ∧ P q ≤ 1) →
      0 ≤ P (((edgesOf (gpoint f iso v k)).map (edgePoint (cube f v) iso 2 0)).foldl (· + ·) ⟨0, 0, 0⟩) / ((edgesOf (gpoint f iso v k)).length : ℝ) ∧
      P (((edgesOf (gpoint f iso v k)).map (edgePoint (cube f v) iso 2 0)).foldl (· + ·) ⟨0, 0, 0⟩) / ((edgesOf (gpoint f iso v k)).length : ℝ) ≤ 1 := by
    intro P hP h0 hu
    have := mean_unit (((edgesOf (gpoint f iso v k)).map (edgePoint (cube f v) iso 2 0)).map P)
      (fun t ht => by obtain ⟨q, hq, rfl⟩ := List.mem_map.mp ht; exact hu q (hall q hq))
    rw [foldl_bounds P hP, h0, zero_add]
    simpa using this
  exact ⟨key V3.x (fun _ _ => rfl) rfl (fun q h => h.1), key V3.y (fun _ _ => rfl) rfl (fun q h => h.2.1),
    key V3.z (fun _ _ => rfl) rfl (fun q h => h.2.2)⟩

/-- The position lies in the closed cell. -/
theorem gpos_cell (f : I3 → ℝ) (iso : ℝ) (v : I3) (k : Nat) : InUnit (gpos f iso v (gpoint f iso v k) - v.toV) := by
  have h := vert_unit f iso v k
  have e : gpos f iso v (gpoint f iso v k) - v.toV = vert (cube f v) iso 2 0 (gpoint f iso v k) := by
    unfold gpos; rw [mk_sub]
    have : ∀ a b : V3, a + b = ⟨a.x + b.x, a.y + b.y, a.z + b.z⟩ := fun _ _ => rfl
    rw [this]; ext <;> simp
  rw [e]; exact h

end FastNoise.Mesh
