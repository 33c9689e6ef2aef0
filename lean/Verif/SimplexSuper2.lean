import Verif.SimplexSuper
/-!
# The code of `SuperSimplex::Gen` in two dimensions sums all contributions
-/
namespace FastNoise.Simplex
open FastNoise.Hash FastNoise.Num FastNoise.Gradient FastNoise.Lattice

noncomputable section

theorem ofInt_sub_mul (a : ℤ) (q : I32) : BitVec.ofInt 32 (a + -1) * q = BitVec.ofInt 32 a * q - q := by
  rw [BitVec.ofInt_add, BitVec.add_mul, BitVec.sub_eq_add_neg]
  congr 1
  rw [show BitVec.ofInt 32 (-1) = -(1 : I32) by decide, BitVec.neg_mul]; simp

theorem ofInt_two_mul (a : ℤ) (q : I32) : BitVec.ofInt 32 (a + 2) * q = BitVec.ofInt 32 a * q + q * 2 := by
  rw [BitVec.ofInt_add, BitVec.add_mul]; simp [BitVec.mul_comm]

theorem add_two_sub (a q : I32) : a + q * 2#32 - q = a + q := by
  rw [show q * 2#32 = q + q by rw [BitVec.mul_two]]
  rw [← BitVec.add_assoc, BitVec.add_sub_cancel]

/-- The two vertices of `SuperSimplex::Gen` 2D besides (0, 0) and (1, 1). -/
def vertA (fXY fX : Bool) : Fin 2 → ℤ := ![2 * bit fX - 1 + bit fXY, bit fXY]
@[inherit_doc vertA] def vertB (fXY fY : Bool) : Fin 2 → ℤ := ![bit fXY, 2 * bit fY - 1 + bit fXY]

theorem block2' (ramp : Ramp) (seed : I32) (r2 : ℝ) (p : Fin 2 → ℝ) (v : Fin 2 → ℤ) (f dx dy : ℝ) (hx hy : I32) (u : Fin 2 → ℝ)
    (hu : ∀ i, skewed p i - v i = u i) (hf : f = r2 - (dx ^ 2 + dy ^ 2))
    (hdx : dx = u 0 + kUnskew 2 * (u 0 + u 1)) (hdy : dy = u 1 + kUnskew 2 * (u 0 + u 1))
    (hhx : hx = BitVec.ofInt 32 (v 0) * primeX) (hhy : hy = BitVec.ofInt 32 (v 1) * primeY) :
    ramp (hashPrimes seed [hx, hy]) [dx, dy] * pow4 (max f 0) = contribution ramp seed r2 p v := by
  refine block2 ramp seed r2 p v f dx dy hx hy u hu ?_ hdx hdy hhx hhy
  rw [hf, hdx, hdy, sq_identity2]

theorem super2_sum (ramp : Ramp) (seed : I32) (p : Fin 2 → ℝ) (h : ∀ i, InRange (skewed p i)) (fXY fX fY : Bool)
    (hXY : fXY = decide (frac p 0 + frac p 1 > 1))
    (hX : fX = decide (frac p 1 - 2 * frac p 0 < if fXY then (-1 : ℝ) else 0))
    (hY : fY = decide (frac p 0 - 2 * frac p 1 < if fXY then (-1 : ℝ) else 0)) :
    super2 ramp seed (p 0) (p 1) = contribution ramp seed (2 / 3) p (fun i => base p i + (fun _ => 0) i) + contribution ramp seed (2 / 3) p (fun i => base p i + (fun _ => 1) i) +
      contribution ramp seed (2 / 3) p (fun i => base p i + vertA fXY fX i) + contribution ramp seed (2 / 3) p (fun i => base p i + vertB fXY fY i) := by
  have hf := kUnskew2_falloff
  have hd0 : 0 ≤ frac p 0 ∧ frac p 0 < 1 := ⟨Int.fract_nonneg _, Int.fract_lt_one _⟩
  have hd1 : 0 ≤ frac p 1 ∧ frac p 1 < 1 := ⟨Int.fract_nonneg _, Int.fract_lt_one _⟩
  obtain ⟨u0, e0⟩ : ∃ u0, frac p 0 = u0 := ⟨_, rfl⟩
  obtain ⟨u1, e1⟩ : ∃ u1, frac p 1 = u1 := ⟨_, rfl⟩
  have b0 : ⌊skewed p 0⌋ = base p 0 := rfl
  have b1 : ⌊skewed p 1⌋ = base p 1 := rfl
  have f0 : skewed p 0 - (base p 0 : ℤ) = u0 := e0
  have f1 : skewed p 1 - (base p 1 : ℤ) = u1 := e1
  have hc : ∀ i, convertI32 ((base p i : ℤ) : ℝ) = BitVec.ofInt 32 (base p i) := fun i => convertI32_floor (h i)
  rw [e0, e1] at hXY hX hY
  rw [e0] at hd0
  rw [e1] at hd1
  have hX' : fX = decide (Num.fma u0 (-2) u1 < if fXY then (-1 : ℝ) else 0) := by rw [hX]; congr 2; unfold Num.fma; ring
  have hY' : fY = decide (Num.fma u1 (-2) u0 < if fXY then (-1 : ℝ) else 0) := by rw [hY]; congr 2; unfold Num.fma; ring
  have sq := sq_identity2 u0 u1
  have q0 : 0 ≤ 2 / 3 - (u0 ^ 2 + u1 ^ 2 - (u0 + u1) ^ 2 / 3) := by nlinarith [hd0.1, hd0.2, hd1.1, hd1.2, mul_nonneg hd0.1 hd1.1, mul_nonneg (sub_nonneg.mpr hd0.2.le) (sub_nonneg.mpr hd1.2.le), mul_nonneg hd0.1 (sub_nonneg.mpr hd0.2.le), mul_nonneg hd1.1 (sub_nonneg.mpr hd1.2.le), mul_nonneg hd0.1 (sub_nonneg.mpr hd1.2.le), mul_nonneg hd1.1 (sub_nonneg.mpr hd0.2.le)]
  have q1 : 0 ≤ 2 / 3 - ((u0 - 1) ^ 2 + (u1 - 1) ^ 2 - (u0 - 1 + (u1 - 1)) ^ 2 / 3) := by nlinarith [hd0.1, hd0.2, hd1.1, hd1.2, mul_nonneg hd0.1 hd1.1, mul_nonneg (sub_nonneg.mpr hd0.2.le) (sub_nonneg.mpr hd1.2.le), mul_nonneg hd0.1 (sub_nonneg.mpr hd0.2.le), mul_nonneg hd1.1 (sub_nonneg.mpr hd1.2.le), mul_nonneg hd0.1 (sub_nonneg.mpr hd1.2.le), mul_nonneg hd1.1 (sub_nonneg.mpr hd0.2.le)]
  have v0 : fnma (u0 + kUnskew 2 * (u0 + u1)) (u0 + kUnskew 2 * (u0 + u1)) (fnma (u1 + kUnskew 2 * (u0 + u1)) (u1 + kUnskew 2 * (u0 + u1)) (2 / 3)) =
      2 / 3 - (u0 ^ 2 + u1 ^ 2 - (u0 + u1) ^ 2 / 3) := by unfold fnma; linarith
  have v1 : Num.fma (kUnskew 2 * (u0 + u1)) (-4 * (√3 + 2) / (√3 + 3)) (2 / 3 - (u0 ^ 2 + u1 ^ 2 - (u0 + u1) ^ 2 / 3) - 2 / 3) =
      2 / 3 - ((u0 - 1) ^ 2 + (u1 - 1) ^ 2 - (u0 - 1 + (u1 - 1)) ^ 2 / 3) := by unfold Num.fma; linear_combination (u0 + u1) * hf
  simp only [super2, (skew2 p).1, (skew2 p).2, b0, b1, hc, f0, f1, ← hXY, v0, v1]
  rw [← hX', ← hY']
  rw [← max_eq_left q0, ← max_eq_left q1]
  rw [show ∀ a b c d : ℝ, a + b + c + d = d + (c + (b + a)) from fun a b c d => by ring]
  simp only [show ∀ a b c : ℝ, Num.fma a b c = b * a + c from fun a b c => by unfold Num.fma; ring]
  rw [mul_comm (pow4 _) (ramp (hashPrimes seed [BitVec.ofInt 32 (base p 0) * primeX, BitVec.ofInt 32 (base p 1) * primeY]) [_, _])]
  have hu : ∀ (c : Fin 2 → ℤ) (i : Fin 2), skewed p i - ((base p i + c i : ℤ) : ℝ) = frac p i - c i := skewed_sub p
  refine congrArg₂ (· + ·) (block2' ramp seed _ p _ _ _ _ _ _ (fun i => ![u0, u1] i - vertB fXY fY i) ?_ ?_ ?_ ?_ ?_ ?_)
    (congrArg₂ (· + ·) (block2' ramp seed _ p _ _ _ _ _ _ (fun i => ![u0, u1] i - vertA fXY fX i) ?_ ?_ ?_ ?_ ?_ ?_)
      (congrArg₂ (· + ·) (block2 ramp seed _ p _ _ _ _ _ _ ![u0 - 1, u1 - 1] ?_ ?_ ?_ ?_ ?_ ?_) (block2 ramp seed _ p _ _ _ _ _ _ ![u0, u1] ?_ ?_ ?_ ?_ ?_ ?_)))
  · intro i; rw [hu]; fin_cases i <;> simp [e0, e1]
  · unfold fnma; ring
  · cases fXY <;> cases fY <;> simp [vertB, bit, maskedSub] <;> ring
  · cases fXY <;> cases fY <;> simp [vertB, bit, maskedSub] <;> ring
  · cases fXY <;> cases fY <;> simp [vertB, bit, maskedAddI, ofInt_succ_mul]
  · cases fXY <;> cases fY <;> simp [vertB, bit, maskedAddI, invMaskedSubI, ofInt_succ_mul, ofInt_two_mul, ofInt_sub_mul]
    exact add_two_sub _ _
  · intro i; rw [hu]; fin_cases i <;> simp [e0, e1]
  · unfold fnma; ring
  · cases fXY <;> cases fX <;> simp [vertA, bit, maskedSub] <;> ring
  · cases fXY <;> cases fX <;> simp [vertA, bit, maskedSub] <;> ring
  · cases fXY <;> cases fX <;> simp [vertA, bit, maskedAddI, invMaskedSubI, ofInt_succ_mul, ofInt_two_mul, ofInt_sub_mul]
    exact add_two_sub _ _
  · cases fXY <;> cases fX <;> simp [vertA, bit, maskedAddI, ofInt_succ_mul]
  · intro i; rw [hu (fun _ => _)]; fin_cases i <;> simp [e0, e1]
  · simp
  · simp; ring
  · simp; ring
  · simp [ofInt_succ_mul]
  · simp [ofInt_succ_mul]
  · intro i; rw [hu (fun _ => _)]; fin_cases i <;> simp [e0, e1]
  · simp
  · simp
  · simp
  · simp
  · simp

theorem far2 (x y : ℝ) (hx : 0 ≤ x ∧ x < 1) (hy : 0 ≤ y ∧ y < 1) (fXY fX fY : Bool) (hXY : fXY = decide (x + y > 1))
    (hX : fX = decide (y - 2 * x < if fXY then (-1 : ℝ) else 0)) (hY : fY = decide (x - 2 * y < if fXY then (-1 : ℝ) else 0)) (p q : ℤ)
    (h0 : ¬(p = 0 ∧ q = 0)) (h1 : ¬(p = 1 ∧ q = 1)) (hA : ¬(p = vertA fXY fX 0 ∧ q = vertA fXY fX 1)) (hB : ¬(p = vertB fXY fY 0 ∧ q = vertB fXY fY 1)) :
    1 ≤ (x - p) ^ 2 + (y - q) ^ 2 - (x - p) * (y - q) := by
  have wide : ∀ (z : ℝ) (r : ℤ), 0 ≤ z → z < 1 → (r ≤ -2 ∨ 3 ≤ r) → 4 ≤ (z - r) ^ 2 := by
    intro z r h h' hr
    rcases hr with hr | hr
    · have : (r : ℝ) ≤ -2 := by exact_mod_cast hr
      nlinarith
    · have : (3 : ℝ) ≤ r := by exact_mod_cast hr
      nlinarith
  by_cases hp : p ≤ -2 ∨ 3 ≤ p
  · have := wide x p hx.1 hx.2 hp; nlinarith [sq_nonneg ((x - p) / 2 - (y - q))]
  by_cases hq : q ≤ -2 ∨ 3 ≤ q
  · have := wide y q hy.1 hy.2 hq; nlinarith [sq_nonneg ((y - q) / 2 - (x - p))]
  have hp' : p = -1 ∨ p = 0 ∨ p = 1 ∨ p = 2 := by omega
  have hq' : q = -1 ∨ q = 0 ∨ q = 1 ∨ q = 2 := by omega
  obtain ⟨hx0, hx1⟩ := hx
  obtain ⟨hy0, hy1⟩ := hy
  have m1 := mul_nonneg hx0 hy0
  have m2 := mul_nonneg hx0 (sub_nonneg.mpr hy1.le)
  have m3 := mul_nonneg (sub_nonneg.mpr hx1.le) hy0
  have m4 := mul_nonneg (sub_nonneg.mpr hx1.le) (sub_nonneg.mpr hy1.le)
  have m5 := sq_nonneg (x - y)
  have m6 := sq_nonneg (x - 1)
  have m7 := sq_nonneg (y - 1)
  have c1 : fXY = true → 1 < x + y := by intro h; rw [h] at hXY; simpa using hXY
  have c2 : fXY = false → x + y ≤ 1 := by intro h; rw [h] at hXY; simpa using hXY
  have c3 : fXY = true → fX = true → y - 2 * x < -1 := by intro h h'; rw [h, h'] at hX; simpa using hX
  have c4 : fXY = true → fX = false → -1 ≤ y - 2 * x := by intro h h'; rw [h, h'] at hX; simpa using hX
  have c5 : fXY = false → fX = true → y - 2 * x < 0 := by intro h h'; rw [h, h'] at hX; simpa using hX
  have c6 : fXY = false → fX = false → 0 ≤ y - 2 * x := by intro h h'; rw [h, h'] at hX; simpa using hX
  have d3 : fXY = true → fY = true → x - 2 * y < -1 := by intro h h'; rw [h, h'] at hY; simpa using hY
  have d4 : fXY = true → fY = false → -1 ≤ x - 2 * y := by intro h h'; rw [h, h'] at hY; simpa using hY
  have d5 : fXY = false → fY = true → x - 2 * y < 0 := by intro h h'; rw [h, h'] at hY; simpa using hY
  have d6 : fXY = false → fY = false → 0 ≤ x - 2 * y := by intro h h'; rw [h, h'] at hY; simpa using hY
  clear hXY hX hY wide hp hq
  rcases hp' with rfl | rfl | rfl | rfl <;> rcases hq' with rfl | rfl | rfl | rfl <;> push_cast
  · nlinarith
  · cases fXY
    · cases fX
      · exact absurd (by decide) hA
      · have := c5 rfl rfl; nlinarith
    · have := c1 rfl; nlinarith
  · nlinarith
  · nlinarith
  · cases fXY
    · cases fY
      · exact absurd (by decide) hB
      · have := d5 rfl rfl; nlinarith
    · have := c1 rfl; nlinarith
  · exact absurd (by decide) h0
  · cases fXY
    · cases fY
      · have := d6 rfl rfl; nlinarith
      · exact absurd (by decide) hB
    · cases fX
      · exact absurd (by decide) hA
      · have := c3 rfl rfl; nlinarith
  · nlinarith
  · nlinarith
  · cases fXY
    · cases fX
      · have := c6 rfl rfl; nlinarith
      · exact absurd (by decide) hA
    · cases fY
      · exact absurd (by decide) hB
      · have := d3 rfl rfl; nlinarith
  · exact absurd (by decide) h1
  · cases fXY
    · have := c2 rfl; nlinarith
    · cases fY
      · have := d4 rfl rfl; nlinarith
      · exact absurd (by decide) hB
  · nlinarith
  · nlinarith
  · cases fXY
    · have := c2 rfl; nlinarith
    · cases fX
      · have := c4 rfl rfl; nlinarith
      · exact absurd (by decide) hA
  · nlinarith

/-- `SuperSimplex::Gen` 2D is the sum of all contributions. -/
theorem super2_eq (ramp : Ramp) (seed : I32) (p : Fin 2 → ℝ) (h : ∀ i, InRange (skewed p i)) :
    super2 ramp seed (p 0) (p 1) = gridNoise ramp seed (2 / 3) p := by
  obtain ⟨fXY, hXY⟩ : ∃ b, b = decide (frac p 0 + frac p 1 > 1) := ⟨_, rfl⟩
  obtain ⟨fX, hX⟩ : ∃ b, b = decide (frac p 1 - 2 * frac p 0 < if fXY then (-1 : ℝ) else 0) := ⟨_, rfl⟩
  obtain ⟨fY, hY⟩ : ∃ b, b = decide (frac p 0 - 2 * frac p 1 < if fXY then (-1 : ℝ) else 0) := ⟨_, rfl⟩
  rw [super2_sum ramp seed p h fXY fX fY hXY hX hY]
  have inj : Function.Injective fun c : Fin 2 → ℤ => fun i => base p i + c i := by
    intro c c' hcc; funext i; have := congrFun hcc i; simpa using this
  have hne : ∀ c c' : Fin 2 → ℤ, c ≠ c' → (fun i => base p i + c i) ≠ fun i => base p i + c' i := fun c c' hc e => hc (inj e)
  rw [gridNoise_eq ramp seed (2 / 3) p {fun i => base p i + (fun _ => 0) i, fun i => base p i + (fun _ => 1) i, fun i => base p i + vertA fXY fX i, fun i => base p i + vertB fXY fY i}]
  · rw [Finset.sum_insert, Finset.sum_insert, Finset.sum_pair, ← add_assoc, ← add_assoc]
    · refine hne _ _ ?_
      cases fXY <;> cases fX <;> cases fY <;> decide
    · simp only [Finset.mem_insert, Finset.mem_singleton]
      rintro (e | e)
      · revert e; refine hne _ _ ?_; cases fXY <;> cases fX <;> decide
      · revert e; refine hne _ _ ?_; cases fXY <;> cases fY <;> decide
    · simp only [Finset.mem_insert, Finset.mem_singleton]
      rintro (e | e | e)
      · revert e; refine hne _ _ ?_; decide
      · revert e; refine hne _ _ ?_; cases fXY <;> cases fX <;> decide
      · revert e; refine hne _ _ ?_; cases fXY <;> cases fY <;> decide
  · intro v hv
    simp only [Finset.mem_insert, Finset.mem_singleton, not_or] at hv
    have ext : ∀ c : Fin 2 → ℤ, v 0 - base p 0 = c 0 ∧ v 1 - base p 1 = c 1 → v = fun i => base p i + c i := by
      rintro c ⟨h0, h1⟩; funext i; fin_cases i <;> simp <;> omega
    have := far2 (frac p 0) (frac p 1) ⟨Int.fract_nonneg _, Int.fract_lt_one _⟩ ⟨Int.fract_nonneg _, Int.fract_lt_one _⟩ fXY fX fY hXY hX hY (v 0 - base p 0) (v 1 - base p 1)
      (fun e => hv.1 (ext _ e)) (fun e => hv.2.1 (ext _ e)) (fun e => hv.2.2.1 (ext _ e)) (fun e => hv.2.2.2 (ext _ e))
    have e0 : frac p 0 - ((v 0 - base p 0 : ℤ) : ℝ) = skewed p 0 - v 0 := by simp only [frac, base]; push_cast; ring
    have e1 : frac p 1 - ((v 1 - base p 1 : ℤ) : ℝ) = skewed p 1 - v 1 := by simp only [frac, base]; push_cast; ring
    rw [e0, e1] at this
    simp only [Q, Fin.sum_univ_two]
    push_cast; linarith

end
end FastNoise.Simplex
