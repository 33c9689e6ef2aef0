import Verif.SimplexMore
/-!
# Lemmas for the discontinuity of 4D SuperSimplex noise
-/
namespace FastNoise.Simplex
open FastNoise.Hash FastNoise.Num FastNoise.Gradient

noncomputable section

theorem B4 (u w : Fin 4 → ℝ) : B u w = u 0 * w 0 + u 1 * w 1 + u 2 * w 2 + u 3 * w 3 - (u 0 + u 1 + u 2 + u 3) * (w 0 + w 1 + w 2 + w 3) / 5 := by
  simp only [B, Fin.sum_univ_four]; norm_num

theorem vec4_bits (b : I32) (i : Fin 4) : vec4 b i = 0 ∨ vec4 b i = 1 := by
  fin_cases i <;> simp only [vec4, bit] <;> simp <;> exact em _

theorem vec4_eta (c : Fin 4 → ℤ) : c = ![c 0, c 1, c 2, c 3] := by funext i; fin_cases i <;> rfl

/-- Just below, the nearest grid point is the base. -/
theorem nearest_below (t : ℝ) (h1 : -(1 / 1000) < t) (h2 : t < 0) (c : Fin 4 → ℤ) (hc : ∀ i, c i = 0 ∨ c i = 1)
    (hq : score ![317 / 400 + t, 19 / 50, 39 / 100, 2 / 5] ![0, 0, 0, 0] ≤ score ![317 / 400 + t, 19 / 50, 39 / 100, 2 / 5] c) : c = ![0, 0, 0, 0] := by
  rw [score4, score4] at hq
  simp only [Matrix.cons_val_zero, Matrix.cons_val_one, Matrix.cons_val] at hq
  rw [vec4_eta c]
  rcases hc 0 with e0 | e0 <;> rcases hc 1 with e1 | e1 <;> rcases hc 2 with e2 | e2 <;> rcases hc 3 with e3 | e3 <;> rw [e0, e1, e2, e3] at hq ⊢ <;>
    first | rfl | (exfalso; norm_num at hq; linarith)

/-- Just above, it is the next grid point along the first axis. -/
theorem nearest_above (t : ℝ) (h1 : 0 < t) (h2 : t < 1 / 1000) (c : Fin 4 → ℤ) (hc : ∀ i, c i = 0 ∨ c i = 1)
    (hq : score ![317 / 400 + t, 19 / 50, 39 / 100, 2 / 5] ![1, 0, 0, 0] ≤ score ![317 / 400 + t, 19 / 50, 39 / 100, 2 / 5] c) : c = ![1, 0, 0, 0] := by
  rw [score4, score4] at hq
  simp only [Matrix.cons_val_zero, Matrix.cons_val_one, Matrix.cons_val] at hq
  rw [vec4_eta c]
  rcases hc 0 with e0 | e0 <;> rcases hc 1 with e1 | e1 <;> rcases hc 2 with e2 | e2 <;> rcases hc 3 with e3 | e3 <;> rw [e0, e1, e2, e3] at hq ⊢ <;>
    first | rfl | (exfalso; norm_num at hq; linarith)

theorem side_const (x y z w : ℝ) (h : (x, y, z, w) = (317 / 400, 19 / 50, 39 / 100, 2 / 5) ∨ (x, y, z, w) = (-(83 / 400), 19 / 50, 39 / 100, 2 / 5))
    (t : ℝ) (h1 : -(1 / 1000) < t) (h2 : t < 1 / 1000) (m : Fin 4 → Bool) :
    side ![x + t, y, z, w] m = side ![x, y, z, w] m := by
  unfold side
  refine decide_eq_decide.mpr ?_
  rw [B4, B4]
  simp only [Matrix.cons_val_zero, Matrix.cons_val_one, Matrix.cons_val]
  generalize m 0 = m0
  generalize m 1 = m1
  generalize m 2 = m2
  generalize m 3 = m3
  rcases h with h | h <;> obtain ⟨rfl, rfl, rfl, rfl⟩ : _ ∧ _ ∧ _ ∧ _ := by simpa using h
  all_goals
    cases m0 <;> cases m1 <;> cases m2 <;> cases m3 <;> simp only [bit] <;> norm_num <;> (try constructor) <;> (try intro) <;> linarith

/-- The falloff vanishes. -/
theorem far4 (ramp : Ramp) (p : Fin 4 → ℝ) (hp : skewed p = ![317 / 400, 19 / 50, 39 / 100, 2 / 5]) (a b c d : ℤ)
    (h : (4 / 5 : ℝ) ≤ (317 / 400 - a) ^ 2 + (19 / 50 - b) ^ 2 + (39 / 100 - c) ^ 2 + (2 / 5 - d) ^ 2 - (317 / 400 + 19 / 50 + 39 / 100 + 2 / 5 - a - b - c - d) ^ 2 / 5) :
    contribution ramp 0 (4 / 5) p ![a, b, c, d] = 0 := by
  rw [contribution_eq, hp]
  refine term_far _ _ _ _ _ ?_
  simp only [Q, Fin.sum_univ_four, Matrix.cons_val_zero, Matrix.cons_val_one, Matrix.cons_val]
  refine h.trans (le_of_eq ?_)
  push_cast; ring

theorem side4_eval (x y z w : ℝ) (m0 m1 m2 m3 : Bool) : side ![x, y, z, w] ![m0, m1, m2, m3] =
    decide ((x * bit m0 + y * bit m1 + z * bit m2 + w * bit m3 - (x + y + z + w) * (bit m0 + bit m1 + bit m2 + bit m3) / 5 : ℝ) < 0) := by
  unfold side; rw [B4]; rfl

theorem step4_eval (b0 b1 b2 b3 : ℤ) (u : Fin 4 → ℝ) (m0 m1 m2 m3 s : Bool) (hs : side u ![m0, m1, m2, m3] = s) :
    step ![b0, b1, b2, b3] u ![m0, m1, m2, m3] = ![b0 + sgnI s * bit m0, b1 + sgnI s * bit m1, b2 + sgnI s * bit m2, b3 + sgnI s * bit m3] := by
  funext i; fin_cases i <;> simp [step, hs]

end
end FastNoise.Simplex
