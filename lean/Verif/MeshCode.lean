import Verif.MeshLemmas

/-! The table row of a cell and the lattice edges the surface crosses. -/

namespace FastNoise.Mesh

theorem rows_get : ∀ (l : List (List Nat)) (k c : Nat), rowsOk k l = true → ∀ (h : c < l.length), rowOk (k + c) l[c] = true := by
  intro l
  induction l with
  | nil => intro k c _ h; simp at h
  | cons a l ih =>
    intro k c h hc
    simp only [rowsOk, Bool.and_eq_true] at h
    cases c with
    | zero => exact h.1
    | succ c =>
      have := ih (k + 1) c h.2 (by simpa using hc)
      rw [show k + (c + 1) = k + 1 + c by ring]; simpa using this

theorem point_crossed {c p k : Nat} (hp : p ∈ dualPointsList.getD c []) (hk : k < 12) (h : p &&& 2 ^ k ≠ 0) : crossed c k = true := by
  by_cases hc : c < dualPointsList.length
  · rw [List.getD_eq_getElem _ _ hc] at hp
    have := rows_get _ 0 c table_rows.1 hc
    rw [Nat.zero_add] at this
    simp only [rowOk, Bool.and_eq_true, List.all_eq_true, List.mem_range, beq_iff_eq] at this
    have h2 := this.2 k hk
    have hpos : 0 < (dualPointsList[c].filter fun p => p &&& 2 ^ k != 0).length :=
      List.length_pos_of_mem (List.mem_filter.mpr ⟨hp, by simpa using h⟩)
    by_contra hcr
    rw [if_neg hcr] at h2
    omega
  · rw [List.getD_eq_default _ _ (by omega)] at hp; cases hp

theorem pointCode_crossed {c e k : Nat} (hk : k < 12) (h : pointCode c e &&& 2 ^ k ≠ 0) : crossed c k = true := by
  unfold pointCode at h
  cases hf : (dualPointsList.getD c []).find? fun p => p &&& e != 0 with
  | none => rw [hf] at h; simp at h
  | some p => rw [hf] at h; exact point_crossed (List.mem_of_find?_eq_some hf) hk h

/-- The eight answers as bits. -/
def nth8 (b0 b1 b2 b3 b4 b5 b6 b7 : Bool) (i : Nat) : Bool := [b0, b1, b2, b3, b4, b5, b6, b7].getD i false

theorem code_bits : ∀ b0 b1 b2 b3 b4 b5 b6 b7 : Bool, ((List.range 8).all fun i =>
    (codeOf b0 b1 b2 b3 b4 b5 b6 b7).testBit i == nth8 b0 b1 b2 b3 b4 b5 b6 b7 i) = true := by decide +kernel

open Classical in
/-- Air: density above the iso value. -/
noncomputable def air (f : I3 → ℝ) (iso : ℝ) (v : I3) : Bool := decide (f v > iso)

/-- The code of a lattice cell. -/
noncomputable def gcode (f : I3 → ℝ) (iso : ℝ) (v : I3) : Nat :=
  codeOf (air f iso v) (air f iso ⟨v.x + 1, v.y, v.z⟩) (air f iso ⟨v.x, v.y + 1, v.z⟩) (air f iso ⟨v.x + 1, v.y + 1, v.z⟩)
    (air f iso ⟨v.x, v.y, v.z + 1⟩) (air f iso ⟨v.x + 1, v.y, v.z + 1⟩) (air f iso ⟨v.x, v.y + 1, v.z + 1⟩) (air f iso ⟨v.x + 1, v.y + 1, v.z + 1⟩)

theorem gcode_eq (f : I3 → ℝ) (iso : ℝ) (v : I3) : cellCode (cube f v) iso 2 0 = gcode f iso v := by
  unfold cellCode gcode air
  simp only [Nat.zero_add, Nat.reduceAdd, Nat.reduceMul, cube]

theorem gpoint_eq (f : I3 → ℝ) (iso : ℝ) (v : I3) (k : Nat) : gpoint f iso v k = pointCode (gcode f iso v) (2 ^ k) := by
  unfold gpoint; rw [gcode_eq]

theorem gcode_bits (f : I3 → ℝ) (iso : ℝ) (v : I3) : ∀ i < 8, (gcode f iso v).testBit i = nth8 (air f iso v) (air f iso ⟨v.x + 1, v.y, v.z⟩) (air f iso ⟨v.x, v.y + 1, v.z⟩)
      (air f iso ⟨v.x + 1, v.y + 1, v.z⟩) (air f iso ⟨v.x, v.y, v.z + 1⟩) (air f iso ⟨v.x + 1, v.y, v.z + 1⟩) (air f iso ⟨v.x, v.y + 1, v.z + 1⟩)
      (air f iso ⟨v.x + 1, v.y + 1, v.z + 1⟩) i := by
  intro i hi
  have := code_bits (air f iso v) (air f iso ⟨v.x + 1, v.y, v.z⟩) (air f iso ⟨v.x, v.y + 1, v.z⟩)
    (air f iso ⟨v.x + 1, v.y + 1, v.z⟩) (air f iso ⟨v.x, v.y, v.z + 1⟩) (air f iso ⟨v.x + 1, v.y, v.z + 1⟩) (air f iso ⟨v.x, v.y + 1, v.z + 1⟩)
    (air f iso ⟨v.x + 1, v.y + 1, v.z + 1⟩)
  rw [List.all_eq_true] at this
  exact beq_iff_eq.mp (this i (List.mem_range.mpr hi))

theorem codeOf_lt : ∀ b0 b1 b2 b3 b4 b5 b6 b7 : Bool, codeOf b0 b1 b2 b3 b4 b5 b6 b7 < 256 := by decide +kernel

/-- A crossed edge has a dual point. -/
theorem gpoint_ne {f : I3 → ℝ} {iso : ℝ} {v : I3} {k : Nat} (hk : k < 12) (h : crossed (gcode f iso v) k = true) : gpoint f iso v k ≠ 0 := by
  have hl : gcode f iso v < dualPointsList.length := by
    rw [table_rows.2]; exact codeOf_lt _ _ _ _ _ _ _ _
  have := rows_get _ 0 _ table_rows.1 hl
  rw [Nat.zero_add] at this
  simp only [rowOk, Bool.and_eq_true, List.all_eq_true, List.mem_range, beq_iff_eq] at this
  have h2 := this.2 k hk
  rw [if_pos h] at h2
  obtain ⟨p, hp⟩ := List.length_pos_iff_exists_mem.mp (by rw [h2]; exact Nat.one_pos)
  obtain ⟨hp1, hp2⟩ := List.mem_filter.mp hp
  rw [gpoint_eq, pointCode, List.getD_eq_getElem _ _ hl]
  cases hf : (dualPointsList[gcode f iso v]).find? fun p => p &&& 2 ^ k != 0 with
  | none => rw [List.find?_eq_none] at hf; exact absurd hp2 (hf p hp1)
  | some q =>
    have := List.find?_some hf
    intro h0
    simp only [Option.getD_some] at h0
    rw [h0] at this
    simp at this

end FastNoise.Mesh
