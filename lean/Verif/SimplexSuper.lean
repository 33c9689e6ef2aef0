import Verif.SimplexCode
/-!
# The code of `SuperSimplex::Gen`
-/
namespace FastNoise.Simplex
open FastNoise.Hash FastNoise.Num FastNoise.Gradient FastNoise.Lattice

noncomputable section

variable {n : Nat}

/-! ## Steps from the nearest grid point -/

/-- The direction with these axes lies on the negative side. -/
def side (u : Fin n → ℝ) (m : Fin n → Bool) : Bool := decide (B u (fun i => (bit (m i) : ℝ)) < 0)

/-- A sign as a number. -/
def sgnI (s : Bool) : ℤ := if s then -1 else 1

/-- The neighbour of the grid point `b` in direction `m`, on the side of the offset `u`. -/
def step (b : Fin n → ℤ) (u : Fin n → ℝ) (m : Fin n → Bool) : Fin n → ℤ := fun i => b i + sgnI (side u m) * bit (m i)

theorem step_injective (b : Fin n → ℤ) (u : Fin n → ℝ) : Function.Injective (step b u) := by
  intro m m' h
  funext i
  have h := congrFun h i
  simp only [step] at h
  revert h
  cases side u m <;> cases side u m' <;> cases m i <;> cases m' i <;> simp [sgnI, bit]

/-- Grid points that are no step away from the nearest grid point are at least this far away. -/
theorem far_of_not_step (d : Fin n → ℝ) (h : Voronoi d) (v : Fin n → ℤ) (hv : ∀ m, v ≠ step 0 d m) :
    min (((n + 2 : ℝ) / (n + 1)) ^ 2 / 2) ((n : ℝ) / (n + 1)) ≤ Q fun i => d i - v i := by
  by_cases h2 : (∃ i, 2 ≤ |v i|) ∨ ∃ i j, 2 ≤ v i - v j
  · exact (min_le_left _ _).trans (h.far v h2)
  refine (min_le_right _ _).trans ?_
  push Not at h2
  obtain ⟨h2, h3⟩ := h2
  have hr : ∀ i, v i = 0 ∨ v i = 1 ∨ v i = -1 := by intro i; have := h2 i; rw [abs_lt] at this; omega
  by_cases hneg : ∃ i, v i = -1
  · obtain ⟨j, hj⟩ := hneg
    have hv' : ∀ i, v i = 0 ∨ v i = -1 := by intro i; have := h3 i j; rcases hr i with h | h | h <;> omega
    have hm : v = fun i => -bit (decide (v i = -1)) := by
      funext i; rcases hv' i with h | h <;> simp [h, bit]
    have hs : side d (fun i => decide (v i = -1)) = false := by
      by_contra hcon
      have hcon : side d (fun i => decide (v i = -1)) = true := by simpa using hcon
      refine hv (fun i => decide (v i = -1)) ?_
      conv_lhs => rw [hm]
      funext i; simp [step, hcon, sgnI]
    have hB : 0 ≤ B d fun i => (bit (decide (v i = -1)) : ℝ) := by simpa [side] using hs
    conv_rhs => rw [hm]
    refine Q_opposite d (fun i => bit (decide (v i = -1))) ?_ ?_ hB
    · intro i; rcases hv' i with h | h <;> simp [h, bit]
    · intro hcon; have := congrFun hcon j; simp [hj, bit] at this
  · push Not at hneg
    have hv' : ∀ i, v i = 0 ∨ v i = 1 := by intro i; have := hneg i; rcases hr i with h | h | h <;> omega
    have hm : v = fun i => bit (decide (v i = 1)) := by
      funext i; rcases hv' i with h | h <;> simp [h, bit]
    have hs : side d (fun i => decide (v i = 1)) = true := by
      by_contra hcon
      have hcon : side d (fun i => decide (v i = 1)) = false := by simpa using hcon
      refine hv (fun i => decide (v i = 1)) ?_
      conv_lhs => rw [hm]
      funext i; simp [step, hcon, sgnI]
    have hB : B d (fun i => (bit (decide (v i = 1)) : ℝ)) < 0 := by simpa [side] using hs
    have hne : v ≠ 0 := by
      rintro rfl
      simp [B, bit] at hB
    have hq := Q_bits v hv' hne
    rw [Q_sub]
    have e : (fun i => (bit (decide (v i = 1)) : ℝ)) = fun i => (v i : ℝ) := by funext i; rw [← congrFun hm i]
    rw [e] at hB
    have := Q_nonneg d
    linarith

/-! ## The nearest grid point -/

/-- The state of the search: the score is the best one so far, up to a shift. -/
def ScoreInv (sc : I32 → ℝ) (shift : ℝ) (seen : List I32) (st : ℝ × I32) : Prop := st.1 = sc st.2 + shift ∧ ∀ c ∈ seen, sc c + shift ≤ st.1

theorem considerVertex_inv {sc : I32 → ℝ} {shift : ℝ} {seen : List I32} {st : ℝ × I32} (h : ScoreInv sc shift seen st) (score : ℝ) (bits : I32)
    (hs : score = sc bits + shift) : ScoreInv sc shift (bits :: seen) (considerVertex st score bits) := by
  obtain ⟨h1, h2⟩ := h
  unfold considerVertex
  constructor
  · simp only
    split_ifs with hgt
    · rw [max_eq_right (le_of_lt hgt), hs]
    · rw [max_eq_left (not_lt.mp hgt), h1]
  · intro c hc
    rcases List.mem_cons.mp hc with rfl | hc
    · rw [← hs]; exact le_max_right _ _
    · exact (h2 c hc).trans (le_max_left _ _)

theorem scoreInv_shift {sc : I32 → ℝ} {shift : ℝ} {seen : List I32} {st : ℝ × I32} (h : ScoreInv sc shift seen st) (x : ℝ) :
    ScoreInv sc (shift + x) seen (st.1 + x, st.2) :=
  ⟨by simp only [h.1]; ring, fun c hc => by have := h.2 c hc; simp only; linarith⟩

/-- The corner of the cube meant by `moveMaskBits`. -/
def vec3 (b : I32) : Fin 3 → ℤ := ![bit (b &&& 1 != 0), bit (b &&& 2 != 0), bit (b &&& 4 != 0)]
@[inherit_doc vec3] def vec4 (b : I32) : Fin 4 → ℤ := ![bit (b &&& 1 != 0), bit (b &&& 2 != 0), bit (b &&& 4 != 0), bit (b &&& 8 != 0)]

/-- How much nearer the corner `c` is than the base. -/
def score (d : Fin n → ℝ) (c : Fin n → ℤ) : ℝ := B d (fun i => (c i : ℝ)) - Q (fun i => (c i : ℝ)) / 2

theorem score_le (d : Fin n → ℝ) (c c' : Fin n → ℤ) (h : score d c' ≤ score d c) : Q (fun i => d i - c i) ≤ Q fun i => d i - c' i := by
  rw [Q_sub, Q_sub]; unfold score at h; linarith

theorem score3 (d : Fin 3 → ℝ) (c : Fin 3 → ℤ) : score d c =
    d 0 * c 0 + d 1 * c 1 + d 2 * c 2 - (d 0 + d 1 + d 2) * (c 0 + c 1 + c 2) / 4 - ((c 0 : ℝ) ^ 2 + (c 1 : ℝ) ^ 2 + (c 2 : ℝ) ^ 2 - ((c 0 : ℝ) + c 1 + c 2) ^ 2 / 4) / 2 := by
  simp only [score, B, Q, Fin.sum_univ_three]; norm_num

theorem score4 (d : Fin 4 → ℝ) (c : Fin 4 → ℤ) : score d c =
    d 0 * c 0 + d 1 * c 1 + d 2 * c 2 + d 3 * c 3 - (d 0 + d 1 + d 2 + d 3) * (c 0 + c 1 + c 2 + c 3) / 5 -
      ((c 0 : ℝ) ^ 2 + (c 1 : ℝ) ^ 2 + (c 2 : ℝ) ^ 2 + (c 3 : ℝ) ^ 2 - ((c 0 : ℝ) + c 1 + c 2 + c 3) ^ 2 / 5) / 2 := by
  simp only [score, B, Q, Fin.sum_univ_four]; norm_num

theorem nearest3_spec (d : Fin 3 → ℝ) (c : Fin 3 → ℤ) (hc : ∀ i, c i = 0 ∨ c i = 1) :
    Q (fun i => d i - vec3 (nearest3 (d 0) (d 1) (d 2)) i) ≤ Q fun i => d i - c i := by
  refine score_le _ _ _ ?_
  have v0 : vec3 0 = ![0, 0, 0] := by decide
  have v1 : vec3 1 = ![1, 0, 0] := by decide
  have v2 : vec3 2 = ![0, 1, 0] := by decide
  have v3 : vec3 3 = ![1, 1, 0] := by decide
  have v4 : vec3 4 = ![0, 0, 1] := by decide
  have v5 : vec3 5 = ![1, 0, 1] := by decide
  have v6 : vec3 6 = ![0, 1, 1] := by decide
  have v7 : vec3 (-1) = ![1, 1, 1] := by decide
  have hinv : ∃ M shift, ScoreInv (fun b => score d (vec3 b)) shift [6, 5, 3, 4, 2, 1, 0, -1] (M, nearest3 (d 0) (d 1) (d 2)) := by
    have h0 : ScoreInv (fun b => score d (vec3 b)) 0.375 [0, -1]
        (max 0.375 (-(-1 / 4 * (d 0 + d 1 + d 2))), if -(-1 / 4 * (d 0 + d 1 + d 2)) > 0.375 then -1 else 0) := by
      constructor
      · simp only
        split_ifs with h
        · rw [max_eq_right h.le, v7, score3]; simp; ring
        · rw [max_eq_left (not_lt.mp h), v0, score3]; simp
      · intro c hc
        rcases List.mem_cons.mp hc with rfl | hc
        · refine le_trans ?_ (le_max_left _ _); simp only [v0, score3]; simp
        · rw [List.mem_singleton.mp hc]
          refine le_trans ?_ (le_max_right _ _); simp only [v7, score3]; simp; ring_nf; norm_num
    have h1 := considerVertex_inv h0 (d 0 + -1 / 4 * (d 0 + d 1 + d 2)) 1 (by simp only [v1, score3]; simp; ring)
    have h2 := considerVertex_inv h1 (d 1 + -1 / 4 * (d 0 + d 1 + d 2)) 2 (by simp only [v2, score3]; simp; ring)
    have h3 := considerVertex_inv h2 (d 2 + -1 / 4 * (d 0 + d 1 + d 2)) 4 (by simp only [v4, score3]; simp; ring)
    have h4 := scoreInv_shift h3 (0.125 - -(-1 / 4 * (d 0 + d 1 + d 2)))
    have h5 := considerVertex_inv h4 (-(d 2 + -1 / 4 * (d 0 + d 1 + d 2))) 3 (by simp only [v3, score3]; simp; ring)
    have h6 := considerVertex_inv h5 (-(d 1 + -1 / 4 * (d 0 + d 1 + d 2))) 5 (by simp only [v5, score3]; simp; ring)
    have h7 := considerVertex_inv h6 (-(d 0 + -1 / 4 * (d 0 + d 1 + d 2))) 6 (by simp only [v6, score3]; simp; ring)
    exact ⟨_, _, h7⟩
  obtain ⟨M, shift, hM, hall⟩ := hinv
  have hmem : ∃ b ∈ [6, 5, 3, 4, 2, 1, 0, (-1 : I32)], vec3 b = c := by
    have hc' : c = ![c 0, c 1, c 2] := by funext i; fin_cases i <;> rfl
    rw [hc']
    rcases hc 0 with h0 | h0 <;> rcases hc 1 with h1 | h1 <;> rcases hc 2 with h2 | h2 <;> rw [h0, h1, h2]
    · exact ⟨0, by simp, v0⟩
    · exact ⟨4, by simp, v4⟩
    · exact ⟨2, by simp, v2⟩
    · exact ⟨6, by simp, v6⟩
    · exact ⟨1, by simp, v1⟩
    · exact ⟨5, by simp, v5⟩
    · exact ⟨3, by simp, v3⟩
    · exact ⟨-1, by simp, v7⟩
  obtain ⟨b, hb, rfl⟩ := hmem
  have := hall b hb
  simp only at hM this
  linarith

theorem nearest4_spec (d : Fin 4 → ℝ) (c : Fin 4 → ℤ) (hc : ∀ i, c i = 0 ∨ c i = 1) :
    Q (fun i => d i - vec4 (nearest4 (d 0) (d 1) (d 2) (d 3)) i) ≤ Q fun i => d i - c i := by
  refine score_le _ _ _ ?_
  have v0 : vec4 0 = ![0, 0, 0, 0] := by decide
  have v1 : vec4 1 = ![1, 0, 0, 0] := by decide
  have v2 : vec4 2 = ![0, 1, 0, 0] := by decide
  have v3 : vec4 3 = ![1, 1, 0, 0] := by decide
  have v4 : vec4 4 = ![0, 0, 1, 0] := by decide
  have v5 : vec4 5 = ![1, 0, 1, 0] := by decide
  have v6 : vec4 6 = ![0, 1, 1, 0] := by decide
  have v7 : vec4 7 = ![1, 1, 1, 0] := by decide
  have v8 : vec4 8 = ![0, 0, 0, 1] := by decide
  have v9 : vec4 9 = ![1, 0, 0, 1] := by decide
  have v10 : vec4 10 = ![0, 1, 0, 1] := by decide
  have v11 : vec4 11 = ![1, 1, 0, 1] := by decide
  have v12 : vec4 12 = ![0, 0, 1, 1] := by decide
  have v13 : vec4 13 = ![1, 0, 1, 1] := by decide
  have v14 : vec4 14 = ![0, 1, 1, 1] := by decide
  have v15 : vec4 (-1) = ![1, 1, 1, 1] := by decide
  have hinv : ∃ M shift, ScoreInv (fun b => score d (vec4 b)) shift [12, 10, 6, 9, 5, 3, 8, 4, 2, 1, 14, 13, 11, 7, 0, (-1 : I32)] (M, nearest4 (d 0) (d 1) (d 2) (d 3)) := by
    obtain ⟨T, hT⟩ : ∃ T, -1 / 5 * (d 0 + d 1 + d 2 + d 3) = T := ⟨_, rfl⟩
    have hS : d 0 + d 1 + d 2 + d 3 = -5 * T := by linarith
    have hS' : ∀ c : Fin 4 → ℤ, score d c = d 0 * c 0 + d 1 * c 1 + d 2 * c 2 + d 3 * c 3 + T * (c 0 + c 1 + c 2 + c 3) -
      ((c 0 : ℝ) ^ 2 + (c 1 : ℝ) ^ 2 + (c 2 : ℝ) ^ 2 + (c 3 : ℝ) ^ 2 - ((c 0 : ℝ) + c 1 + c 2 + c 3) ^ 2 / 5) / 2 := by
      intro c; rw [score4, hS]; ring
    have h0 : ScoreInv (fun b => score d (vec4 b)) (0.6 - -T) [0, -1] (max (0.6 - -T) 0.2, if 0.2 > 0.6 - -T then -1 else 0) := by
      constructor
      · simp only
        split_ifs with h
        · rw [max_eq_right h.le, v15, hS']; simp; linarith
        · rw [max_eq_left (not_lt.mp h), v0, hS']; simp
      · intro c hc
        rcases List.mem_cons.mp hc with rfl | hc
        · refine le_trans ?_ (le_max_left _ _); simp only [v0, hS']; simp
        · rw [List.mem_singleton.mp hc]
          refine le_trans ?_ (le_max_right _ _); simp only [v15, hS']; simp; linarith
    have h1 := considerVertex_inv h0 (-(d 3 + T)) 7 (by simp only [v7, hS']; simp; linarith)
    have h2 := considerVertex_inv h1 (-(d 2 + T)) 11 (by simp only [v11, hS']; simp; linarith)
    have h3 := considerVertex_inv h2 (-(d 1 + T)) 13 (by simp only [v13, hS']; simp; linarith)
    have h4 := considerVertex_inv h3 (-(d 0 + T)) 14 (by simp only [v14, hS']; simp; linarith)
    have h5 := scoreInv_shift h4 (-T - 0.2)
    have h6 := considerVertex_inv h5 (d 0 + T) 1 (by simp only [v1, hS']; simp; linarith)
    have h7 := considerVertex_inv h6 (d 1 + T) 2 (by simp only [v2, hS']; simp; linarith)
    have h8 := considerVertex_inv h7 (d 2 + T) 4 (by simp only [v4, hS']; simp; linarith)
    have h9 := considerVertex_inv h8 (d 3 + T) 8 (by simp only [v8, hS']; simp; linarith)
    have h10 := scoreInv_shift h9 (0.2 - (d 0 + T))
    have h11 := considerVertex_inv h10 (d 1 + T) 3 (by simp only [v3, hS']; simp; linarith)
    have h12 := considerVertex_inv h11 (d 2 + T) 5 (by simp only [v5, hS']; simp; linarith)
    have h13 := considerVertex_inv h12 (d 3 + T) 9 (by simp only [v9, hS']; simp; linarith)
    have h14 := scoreInv_shift h13 (d 0 + T)
    have h15 := considerVertex_inv h14 (d 1 + T + (d 2 + T)) 6 (by simp only [v6, hS']; simp; linarith)
    have h16 := scoreInv_shift h15 (-(d 3 + T))
    have h17 := considerVertex_inv h16 (d 1 + T) 10 (by simp only [v10, hS']; simp; linarith)
    have h18 := considerVertex_inv h17 (d 2 + T) 12 (by simp only [v12, hS']; simp; linarith)
    have e : ∀ (st : ℝ × I32) (sh : ℝ) (l : List I32), ScoreInv (fun b => score d (vec4 b)) sh l st → st.2 = nearest4 (d 0) (d 1) (d 2) (d 3) →
        ∃ M shift, ScoreInv (fun b => score d (vec4 b)) shift l (M, nearest4 (d 0) (d 1) (d 2) (d 3)) := fun st sh l h e => ⟨st.1, sh, by rw [← e]; exact h⟩
    refine e _ _ _ h18 ?_
    simp only [nearest4, hT, sub_eq_add_neg]
  obtain ⟨M, shift, hM, hall⟩ := hinv
  have hmem : ∃ b ∈ [12, 10, 6, 9, 5, 3, 8, 4, 2, 1, 14, 13, 11, 7, 0, (-1 : I32)], vec4 b = c := by
    have hc' : c = ![c 0, c 1, c 2, c 3] := by funext i; fin_cases i <;> rfl
    rw [hc']
    rcases hc 0 with h0 | h0 <;> rcases hc 1 with h1 | h1 <;> rcases hc 2 with h2 | h2 <;> rcases hc 3 with h3 | h3 <;> rw [h0, h1, h2, h3]
    · exact ⟨0, by simp, v0⟩
    · exact ⟨8, by simp, v8⟩
    · exact ⟨4, by simp, v4⟩
    · exact ⟨12, by simp, v12⟩
    · exact ⟨2, by simp, v2⟩
    · exact ⟨10, by simp, v10⟩
    · exact ⟨6, by simp, v6⟩
    · exact ⟨14, by simp, v14⟩
    · exact ⟨1, by simp, v1⟩
    · exact ⟨9, by simp, v9⟩
    · exact ⟨5, by simp, v5⟩
    · exact ⟨13, by simp, v13⟩
    · exact ⟨3, by simp, v3⟩
    · exact ⟨11, by simp, v11⟩
    · exact ⟨7, by simp, v7⟩
    · exact ⟨-1, by simp, v15⟩
  obtain ⟨b, hb, rfl⟩ := hmem
  have := hall b hb
  simp only at hM this
  linarith

end
end FastNoise.Simplex
