import Verif.FloatSimplexLemmas
/-! # The binary32 Simplex noise is close to the exact one at a nearby position -/
namespace FastNoise.F32
open FastNoise.Hash FastNoise.Num FastNoise.Basic FastNoise.Lattice
open FastNoise.Gradient (Feat)
open FastNoise.Simplex (maskedAddI invMaskedAddI kUnskew kSkew pow4 skewed gridNoise Q block2 sq_identity2 ofInt_succ_mul)

noncomputable section

/-! ## Where the noise is computed -/

theorem kSkew_bounds : 0.366025 ≤ kSkew 2 ∧ kSkew 2 ≤ 0.366026 := by
  obtain ⟨h1, h2⟩ := sqrt3_bounds
  rw [kSkew_eq]; constructor <;> linarith

theorem skew_unskew : kSkew 2 + kUnskew 2 + 2 * kUnskew 2 * kSkew 2 = 0 := by
  have h : √3 * √3 = (3 : ℝ) := Real.mul_self_sqrt (by norm_num)
  rw [kSkew_eq, kUnskew_eq]; linear_combination h / 6

theorem roundM (m j : ℕ) (x : ℝ) (hx : |x| ≤ 2 ^ j * 2 ^ m) : |fl x - x| ≤ 2 ^ j * U * 2 ^ m := by
  have := fl_err_le (x := x) (k := (m : ℤ) + j) (by omega) (by rw [zpow_add₀ (by norm_num), zpow_natCast, zpow_natCast]; linarith)
  refine this.trans (le_of_eq ?_)
  rw [show (m : ℤ) + (j : ℤ) - 25 = m + j + -25 by ring, zpow_add₀ (by norm_num), zpow_add₀ (by norm_num), zpow_natCast, zpow_natCast]
  unfold U; norm_num; ring

/-- A skewed coordinate. -/
theorem skewed_err (m : ℕ) {x y z : ℝ} (hx : |x| ≤ 2 ^ m) (hy : |y| ≤ 2 ^ m) (hz : |z| ≤ 2 ^ m) :
    |add z (mul kSkew2F (add x y)) - (z + kSkew 2 * (x + y))| ≤ 4.75 * U * 2 ^ m ∧ |add z (mul kSkew2F (add x y))| ≤ 2 * 2 ^ m := by
  have hu := U_pos
  have hs := U_small
  have hM : (0 : ℝ) < 2 ^ m := by positivity
  have r := roundM m
  generalize (2 : ℝ) ^ m = M at *
  have UM : U * M ≤ 1 / 10000000 * M := mul_le_mul_of_nonneg_right hs hM.le
  have UM0 : 0 < U * M := by positivity
  have hx' := abs_le.mp hx
  have hy' := abs_le.mp hy
  have hz' := abs_le.mp hz
  obtain ⟨k1, k2⟩ := kSkew_bounds
  have ke := kSkewF_err
  unfold add mul
  have r1 := r 1 (x + y) (by rw [abs_le]; constructor <;> linarith)
  obtain ⟨s, hs'⟩ : ∃ s, fl (x + y) = s := ⟨_, rfl⟩
  rw [hs'] at r1 ⊢
  have r1' := abs_le.mp r1
  have sb : |s| ≤ 2.00001 * M := by rw [abs_le]; constructor <;> linarith
  have kb : |kSkew 2| ≤ 0.366026 := by rw [abs_le]; constructor <;> linarith
  have e1 : |kSkew2F * s - kSkew 2 * (x + y)| ≤ 1.7331 * (U * M) := by
    have e : kSkew2F * s - kSkew 2 * (x + y) = (kSkew2F - kSkew 2) * s + kSkew 2 * (s - (x + y)) := by ring
    rw [e]
    refine (abs_add_le _ _).trans ?_
    rw [abs_mul, abs_mul]
    have m1 := mul_le_mul ke sb (abs_nonneg _) (by linarith)
    have m2 := mul_le_mul kb r1 (abs_nonneg _) (by norm_num)
    linarith
  have e1' := abs_le.mp e1
  have kab : |kSkew 2 * (x + y)| ≤ 0.732052 * M := by
    rw [abs_mul]
    have : |x + y| ≤ 2 * M := by rw [abs_le]; constructor <;> linarith
    have := mul_le_mul kb this (abs_nonneg _) (by norm_num)
    linarith
  have kab' := abs_le.mp kab
  have r2 := abs_le.mp (r 0 (kSkew2F * s) (by rw [abs_le]; constructor <;> linarith))
  have r3 := abs_le.mp (r 1 (z + fl (kSkew2F * s)) (by rw [abs_le]; constructor <;> linarith))
  constructor <;> rw [abs_le] <;> constructor <;> linarith

/-- The position whose skewed coordinates are `u` and `v`. -/
def unskewed (u v : ℝ) : Fin 2 → ℝ := ![u + kUnskew 2 * (u + v), v + kUnskew 2 * (u + v)]

theorem skewed_unskewed (u v : ℝ) : skewed (unskewed u v) 0 = u ∧ skewed (unskewed u v) 1 = v := by
  have h := skew_unskew
  rw [← (Simplex.skew2 _).1, ← (Simplex.skew2 _).2]
  constructor <;> simp only [unskewed, Matrix.cons_val_zero, Matrix.cons_val_one] <;> linear_combination (u + v) * h

/-- Undoing the skew does not enlarge errors. -/
theorem unskewed_err {x y u v ε : ℝ} (hu : |u - (x + kSkew 2 * (x + y))| ≤ ε) (hv : |v - (y + kSkew 2 * (x + y))| ≤ ε) :
    |unskewed u v 0 - x| ≤ ε ∧ |unskewed u v 1 - y| ≤ ε := by
  obtain ⟨k1, k2⟩ := kUnskew_bounds
  have h := skew_unskew
  obtain ⟨a, ha⟩ : ∃ a, u - (x + kSkew 2 * (x + y)) = a := ⟨_, rfl⟩
  obtain ⟨b, hb⟩ : ∃ b, v - (y + kSkew 2 * (x + y)) = b := ⟨_, rfl⟩
  rw [ha] at hu
  rw [hb] at hv
  have e0 : unskewed u v 0 - x = (1 + kUnskew 2) * a + kUnskew 2 * b := by
    simp only [unskewed, Matrix.cons_val_zero]
    rw [← ha, ← hb]; linear_combination (x + y) * h
  have e1 : unskewed u v 1 - y = (1 + kUnskew 2) * b + kUnskew 2 * a := by
    simp only [unskewed, Matrix.cons_val_one, Matrix.cons_val_zero]
    rw [← ha, ← hb]; linear_combination (x + y) * h
  have key : ∀ c d : ℝ, |c| ≤ ε → |d| ≤ ε → |(1 + kUnskew 2) * c + kUnskew 2 * d| ≤ ε := by
    intro c d hc hd
    refine (abs_add_le _ _).trans ?_
    rw [abs_mul, abs_mul, abs_of_pos (by linarith : 0 < 1 + kUnskew 2), abs_of_neg (by linarith : kUnskew 2 < 0)]
    have m1 := mul_le_mul_of_nonneg_left hc (by linarith : 0 ≤ 1 + kUnskew 2)
    have m2 := mul_le_mul_of_nonneg_left hd (by linarith : 0 ≤ -kUnskew 2)
    linarith
  exact ⟨e0 ▸ key a b hu hv, e1 ▸ key b a hv hu⟩

/-! ## The exact noise, from the offsets of the code -/

/-- The offsets of the three corners, without rounding. -/
def off0 (a b : ℝ) : ℝ × ℝ := (a + kUnskew 2 * (a + b), b + kUnskew 2 * (a + b))
@[inherit_doc off0] def off1 (a b : ℝ) : ℝ × ℝ :=
  ((if !decide (a ≥ b) then (off0 a b).1 + 1 else (off0 a b).1) - (kUnskew 2 + 1), (if decide (a ≥ b) then (off0 a b).2 + 1 else (off0 a b).2) - (kUnskew 2 + 1))
@[inherit_doc off0] def off2 (a b : ℝ) : ℝ × ℝ := ((off0 a b).1 - (kUnskew 2 * 2 + 1), (off0 a b).2 - (kUnskew 2 * 2 + 1))

/-- The falloff at an offset. -/
def fall (o : ℝ × ℝ) : ℝ := 1 / 2 - o.1 * o.1 - o.2 * o.2

theorem fall2 (a b : ℝ) : fall (off2 a b) = fall (off0 a b) + (2 / 3 * (a + b) - 2 / 3) := by
  have h := Simplex.kUnskew2_sq
  simp only [fall, off2, off0]
  linear_combination (8 * a + 8 * b - 8) * h

theorem off_bounds {a b : ℝ} (a0 : 0 ≤ a) (a1 : a ≤ 1) (b0 : 0 ≤ b) (b1 : b ≤ 1) :
    (|(off0 a b).1| ≤ 0.79 ∧ |(off0 a b).2| ≤ 0.79) ∧ (|(off1 a b).1| ≤ 0.79 ∧ |(off1 a b).2| ≤ 0.79) ∧ (|(off2 a b).1| ≤ 0.79 ∧ |(off2 a b).2| ≤ 0.79) := by
  obtain ⟨k1, k2⟩ := kUnskew_bounds
  have ka1 := mul_le_mul_of_nonneg_right k1 a0
  have ka2 := mul_le_mul_of_nonneg_right k2 a0
  have kb1 := mul_le_mul_of_nonneg_right k1 b0
  have kb2 := mul_le_mul_of_nonneg_right k2 b0
  simp only [off0, off1, off2]
  refine ⟨⟨?_, ?_⟩, ⟨?_, ?_⟩, ⟨?_, ?_⟩⟩
  · rw [abs_le]; constructor <;> linarith
  · rw [abs_le]; constructor <;> linarith
  · by_cases c : a ≥ b
    · simp only [c, decide_true, Bool.not_true, Bool.false_eq_true, if_false]; rw [abs_le]; constructor <;> linarith
    · simp only [c, decide_false, Bool.not_false, if_true]; rw [abs_le]; constructor <;> linarith
  · by_cases c : a ≥ b
    · simp only [c, decide_true, if_true]; rw [abs_le]; constructor <;> linarith
    · simp only [c, decide_false, Bool.false_eq_true, if_false]; rw [abs_le]; constructor <;> linarith
  · rw [abs_le]; constructor <;> linarith
  · rw [abs_le]; constructor <;> linarith

theorem grid_corners (ft : Feat) (seed : I32) (q : Fin 2 → ℝ) (i j : ℤ) {a b : ℝ} (a0 : 0 ≤ a) (a1 : a ≤ 1) (b0 : 0 ≤ b) (b1 : b ≤ 1)
    (h0 : skewed q 0 = i + a) (h1 : skewed q 1 = j + b) :
    gridNoise (Lattice.gradDot ft) seed (1 / 2) q =
      Gradient.dotPerlin2 ft (hashPrimes seed [BitVec.ofInt 32 i * primeX, BitVec.ofInt 32 j * primeY]) (off0 a b).1 (off0 a b).2 * pow4 (max (fall (off0 a b)) 0) +
      (Gradient.dotPerlin2 ft (hashPrimes seed [maskedAddI (decide (a ≥ b)) (BitVec.ofInt 32 i * primeX) primeX, invMaskedAddI (decide (a ≥ b)) (BitVec.ofInt 32 j * primeY) primeY])
          (off1 a b).1 (off1 a b).2 * pow4 (max (fall (off1 a b)) 0) +
        Gradient.dotPerlin2 ft (hashPrimes seed [BitVec.ofInt 32 i * primeX + primeX, BitVec.ofInt 32 j * primeY + primeY]) (off2 a b).1 (off2 a b).2 * pow4 (max (fall (off2 a b)) 0)) := by
  obtain ⟨rank, hrank⟩ : ∃ rank : Equiv.Perm (Fin 2), rank = if a ≥ b then 1 else Equiv.swap 0 1 := ⟨_, rfl⟩
  have hs : ∀ i j, rank i < rank j → ![a, b] j ≤ ![a, b] i := by
    rw [hrank]
    intro i j
    split_ifs with c
    · fin_cases i <;> fin_cases j <;> simp <;> linarith
    · fin_cases i <;> fin_cases j <;> simp <;> linarith
  rw [Simplex.gridNoise_eq (Lattice.gradDot ft) seed (1 / 2) q (Finset.univ.image fun k : Fin 3 => Simplex.corner ![i, j] rank k)]
  swap
  · intro v hv
    refine (Simplex.Q_ge_half ![a, b] ?_ rank hs (fun l => v l - ![i, j] l) ?_).trans (le_of_eq ?_)
    · intro l; fin_cases l
      · exact ⟨a0, a1⟩
      · exact ⟨b0, b1⟩
    · intro k e
      refine hv (Finset.mem_image.mpr ⟨k, Finset.mem_univ _, ?_⟩)
      funext l
      have := congrFun e l
      simp only [Simplex.corner, Pi.zero_apply] at this ⊢
      omega
    · congr 1; funext l; fin_cases l <;> simp [h0, h1] <;> ring
  rw [Finset.sum_image fun _ _ _ _ e => Simplex.corner_injective ![i, j] rank e, Fin.sum_univ_three, add_assoc]
  have sq : ∀ u v : ℝ, fall (u + kUnskew 2 * (u + v), v + kUnskew 2 * (u + v)) = 1 / 2 - (u ^ 2 + v ^ 2 - (u + v) ^ 2 / 3) := by
    intro u v
    have := sq_identity2 u v
    simp only [fall]; linarith
  symm
  have o2 : off2 a b = (a - 1 + kUnskew 2 * (a - 1 + (b - 1)), b - 1 + kUnskew 2 * (a - 1 + (b - 1))) := by
    simp only [off2, off0, Prod.mk.injEq]; constructor <;> ring
  refine congrArg₂ (· + ·) (block2 (Lattice.gradDot ft) seed _ q _ _ _ _ _ _ ![a, b] ?_ ?_ ?_ ?_ ?_ ?_)
      (congrArg₂ (· + ·) (block2 (Lattice.gradDot ft) seed _ q _ _ _ _ _ _ (if a ≥ b then ![a - 1, b] else ![a, b - 1]) ?_ ?_ ?_ ?_ ?_ ?_)
        (block2 (Lattice.gradDot ft) seed _ q _ _ _ _ _ _ ![a - 1, b - 1] ?_ ?_ ?_ ?_ ?_ ?_))
  · intro l; fin_cases l <;> simp [Simplex.corner, h0, h1]
  · exact sq a b
  · simp [off0]
  · simp [off0]
  · simp [Simplex.corner]
  · simp [Simplex.corner]
  · by_cases c : a ≥ b <;> intro l <;> fin_cases l <;> simp [Simplex.corner, h0, h1, hrank, c] <;> ring
  · by_cases c : a ≥ b
    · have e : off1 a b = (a - 1 + kUnskew 2 * (a - 1 + b), b + kUnskew 2 * (a - 1 + b)) := by
        simp only [off1, off0, c, decide_true, Bool.not_true, Bool.false_eq_true, if_false, if_true, Prod.mk.injEq]; constructor <;> ring
      rw [e, sq]; simp [c]
    · have e : off1 a b = (a + kUnskew 2 * (a + (b - 1)), b - 1 + kUnskew 2 * (a + (b - 1))) := by
        simp only [off1, off0, c, decide_false, Bool.not_false, Bool.false_eq_true, if_false, if_true, Prod.mk.injEq]; constructor <;> ring
      rw [e, sq]; simp [c]
  · by_cases c : a ≥ b <;> simp [c, off1, off0] <;> ring
  · by_cases c : a ≥ b <;> simp [c, off1, off0] <;> ring
  · by_cases c : a ≥ b <;> simp [c, maskedAddI, Simplex.corner, hrank, ofInt_succ_mul]
  · by_cases c : a ≥ b <;> simp [c, invMaskedAddI, Simplex.corner, hrank, ofInt_succ_mul]
  · by_cases c : a ≥ b <;> intro l <;> fin_cases l <;> simp [Simplex.corner, h0, h1, hrank, c] <;> ring
  · rw [o2, sq]; simp
  · rw [o2]; simp
  · rw [o2]; simp
  · by_cases c : a ≥ b <;> simp [c, Simplex.corner, hrank, ofInt_succ_mul]
  · by_cases c : a ≥ b <;> simp [c, Simplex.corner, hrank, ofInt_succ_mul]

/-! ## The noise before `ScaleOutput` -/

theorem fall_bounds {o : ℝ × ℝ} (h1 : |o.1| ≤ 0.79) (h2 : |o.2| ≤ 0.79) : -0.75 ≤ fall o ∧ fall o ≤ 1 / 2 := by
  have a := abs_mul_abs_self o.1
  have b := abs_mul_abs_self o.2
  unfold fall
  constructor <;> nlinarith [abs_nonneg o.1, abs_nonneg o.2]

theorem simplexRaw_cell (ft : Feat) (L : Level) (seed : I32) {x y : ℝ} {A B : ℝ} (hA : add x (mul kSkew2F (add x y)) = A) (hB : add y (mul kSkew2F (add x y)) = B)
    (iA : Lattice.InRange A) (iB : Lattice.InRange B) (q : Fin 2 → ℝ) (h0 : skewed q 0 = (⌊A⌋ : ℤ) + sub A (⌊A⌋ : ℤ)) (h1 : skewed q 1 = (⌊B⌋ : ℤ) + sub B (⌊B⌋ : ℤ)) :
    |simplexRaw2 ft L seed x y - gridNoise (Lattice.gradDot ft) seed (1 / 2) q| ≤ 42 * U := by
  obtain ⟨-, a0, a1⟩ := fract_mem A
  obtain ⟨-, b0, b1⟩ := fract_mem B
  rw [grid_corners ft seed q _ _ a0 a1 b0 b1 h0 h1]
  unfold simplexRaw2
  simp only [hA, hB, convertI32_floor iA, convertI32_floor iB]
  have ra : Rep (sub A (⌊A⌋ : ℤ)) := rep_fl _
  have rb : Rep (sub B (⌊B⌋ : ℤ)) := rep_fl _
  generalize sub A (⌊A⌋ : ℤ) = a at *
  generalize sub B (⌊B⌋ : ℤ) = b at *
  obtain ⟨⟨bx0, by0⟩, ⟨bx1, by1⟩, ⟨bx2, by2⟩⟩ := off_bounds a0 a1 b0 b1
  obtain ⟨de, db⟩ := delta_err a0 a1 b0 b1
  have f2 := fall2 a b
  have fb0 := fall_bounds bx0 by0
  have fb2 := fall_bounds bx2 by2
  rw [f2] at fb2
  have rud : Rep (mul kUnskew2F (add a b)) := rep_fl _
  generalize mul kUnskew2F (add a b) = ud at *
  have ex0 : |add a ud - (off0 a b).1| ≤ 2.5 * U := dx0_err de bx0
  have ey0 : |add b ud - (off0 a b).2| ≤ 2.5 * U := dx0_err de by0
  have ex1 : |sub (maskedIncF (!decide (a ≥ b)) (add a ud)) kStep1F - (off1 a b).1| ≤ 6 * U := dx1_err _ ex0 bx0 bx1
  have ey1 : |sub (maskedIncF (decide (a ≥ b)) (add b ud)) kStep1F - (off1 a b).2| ≤ 6 * U := dx1_err _ ey0 by0 by1
  have ex2 : |sub (add a ud) kStep2F - (off2 a b).1| ≤ 6 * U := dx2_err ex0 bx2
  have ey2 : |sub (add b ud) kStep2F - (off2 a b).2| ≤ 6 * U := dx2_err ey0 by2
  have rx0 : Rep (add a ud) := rep_fl _
  have ry0 : Rep (add b ud) := rep_fl _
  have rx1 : Rep (sub (maskedIncF (!decide (a ≥ b)) (add a ud)) kStep1F) := rep_fl _
  have ry1 : Rep (sub (maskedIncF (decide (a ≥ b)) (add b ud)) kStep1F) := rep_fl _
  have rx2 : Rep (sub (add a ud) kStep2F) := rep_fl _
  have ry2 : Rep (sub (add b ud) kStep2F) := rep_fl _
  generalize sub (maskedIncF (!decide (a ≥ b)) (add a ud)) kStep1F = x1 at *
  generalize sub (maskedIncF (decide (a ≥ b)) (add b ud)) kStep1F = y1 at *
  generalize sub (add a ud) kStep2F = x2 at *
  generalize sub (add b ud) kStep2F = y2 at *
  generalize add a ud = x0 at *
  generalize add b ud = y0 at *
  have hu := U_pos
  have fe0 : |fnma L x0 x0 (fnma L y0 y0 0.5) - fall (off0 a b)| ≤ 12 * U := (falloff_err L ex0 ey0 (by linarith) bx0 by0).trans (by linarith)
  have fe1 : |fnma L x1 x1 (fnma L y1 y1 0.5) - fall (off1 a b)| ≤ 24 * U := (falloff_err L ex1 ey1 le_rfl bx1 by1).trans (by linarith)
  have fe2 := falloff2_err L fe0 de db (by linarith) (by linarith) fb0 fb2
  rw [← f2] at fe2
  obtain ⟨v0, w0, -⟩ := vertex_err ft L (hashPrimes seed [BitVec.ofInt 32 ⌊A⌋ * primeX, BitVec.ofInt 32 ⌊B⌋ * primeY]) rx0 ry0 (ex0.trans (by linarith)) (ey0.trans (by linarith)) bx0 by0
    (fe0.trans (by linarith))
  obtain ⟨v1, w1, -⟩ := vertex_err ft L (hashPrimes seed [maskedAddI (decide (a ≥ b)) (BitVec.ofInt 32 ⌊A⌋ * primeX) primeX, invMaskedAddI (decide (a ≥ b)) (BitVec.ofInt 32 ⌊B⌋ * primeY) primeY])
    rx1 ry1 ex1 ey1 bx1 by1 fe1
  obtain ⟨v2, w2, -⟩ := vertex_err ft L (hashPrimes seed [BitVec.ofInt 32 ⌊A⌋ * primeX + primeX, BitVec.ofInt 32 ⌊B⌋ * primeY + primeY]) rx2 ry2 ex2 ey2 bx2 by2 fe2
  exact sum3_err L v0 v1 v2 w0 w1 w2

/-- For every position there is one close to it at which the exact noise is almost the computed one: on all processors. -/
theorem simplexRaw_err {m : ℕ} (hm : m ≤ 27) {x y : ℝ} (hx : |x| ≤ 2 ^ m) (hy : |y| ≤ 2 ^ m) :
    ∃ q : Fin 2 → ℝ, |q 0 - x| ≤ 6 * U * 2 ^ m ∧ |q 1 - y| ≤ 6 * U * 2 ^ m ∧
      ∀ (ft : Feat) (L : Level) (seed : I32), |simplexRaw2 ft L seed x y - gridNoise (Lattice.gradDot ft) seed (1 / 2) q| ≤ 42 * U := by
  obtain ⟨eA, bA⟩ := skewed_err m hx hy hx
  obtain ⟨eB, bB⟩ := skewed_err m hx hy hy
  obtain ⟨A, hA⟩ : ∃ A, add x (mul kSkew2F (add x y)) = A := ⟨_, rfl⟩
  obtain ⟨B, hB⟩ : ∃ B, add y (mul kSkew2F (add x y)) = B := ⟨_, rfl⟩
  rw [hA] at eA bA
  rw [hB] at eB bB
  have hM : (1 : ℝ) ≤ 2 ^ m := one_le_pow₀ (by norm_num)
  have hM2 : (2 : ℝ) ^ m ≤ 2 ^ 27 := pow_le_pow_right₀ (by norm_num) hm
  have hu := U_pos
  have hUM : U ≤ U * 2 ^ m := le_mul_of_one_le_right hu.le hM
  have rng : ∀ z : ℝ, |z| ≤ 2 * 2 ^ m → Lattice.InRange z := by
    intro z hz
    have := abs_le.mp hz
    unfold Lattice.InRange
    rw [Int.le_floor, Int.floor_lt]
    constructor
    · push_cast; norm_num at hM2 ⊢; linarith
    · push_cast; norm_num at hM2 ⊢; linarith
  have close : ∀ z Z : ℝ, |z - Z| ≤ 4.75 * U * 2 ^ m → |(⌊z⌋ : ℤ) + sub z (⌊z⌋ : ℤ) - Z| ≤ 6 * U * 2 ^ m := by
    intro z Z hz
    have h1 := abs_le.mp (fract_err z)
    have h2 := abs_le.mp hz
    rw [abs_le]; constructor <;> linarith
  obtain ⟨s0, s1⟩ := skewed_unskewed ((⌊A⌋ : ℤ) + sub A (⌊A⌋ : ℤ)) ((⌊B⌋ : ℤ) + sub B (⌊B⌋ : ℤ))
  obtain ⟨c0, c1⟩ := unskewed_err (close A _ eA) (close B _ eB)
  exact ⟨_, c0, c1, fun ft L seed => simplexRaw_cell ft L seed hA hB (rng A bA) (rng B bB) _ s0 s1⟩

/-! ## `ScaleOutput` -/

theorem scaleS_err (L : Level) {k : ℤ} (hk : -100 ≤ k) {lo hi v u δ b : ℝ} (bl : |lo| ≤ 2 ^ k) (bh : |hi| ≤ 2 ^ k) (b1 : 0.026 ≤ b) (b2 : b ≤ 0.031) (hb : Rep (b - -b))
    (hu : |u| ≤ b) (hd : |v - u| ≤ δ) (hδ : δ ≤ 1 / 100000) :
    |scaleOutput L ⟨lo, hi - lo⟩ v (-b) b - (Num.fma (1 / (b - -b) * (hi - lo)) (u - -b) lo)| ≤ (δ / b + 20 * U) * 2 ^ k := by
  have hU := U_pos
  have hs := U_small
  have hpk := two_zpow_pos k
  have round : ∀ (j : ℕ) (x : ℝ), |x| ≤ 2 ^ j * 2 ^ k → |fl x - x| ≤ 2 ^ j * U * 2 ^ k := by
    intro j x hx
    have := fl_err_le (x := x) (k := k + j) (by omega) (by rw [zpow_add₀ (by norm_num), zpow_natCast]; linarith)
    refine this.trans (le_of_eq ?_)
    rw [show k + (j : ℤ) - 25 = k + j + -25 by ring, zpow_add₀ (by norm_num), zpow_add₀ (by norm_num), zpow_natCast]
    unfold U; norm_num; ring
  generalize (2 : ℝ) ^ k = M at *
  have e0 : sub b (-b) = b - -b := fl_rep hb
  unfold scaleOutput
  simp only
  rw [e0]
  have hbb : b - -b = 2 * b := by ring
  rw [hbb]
  have i0 : 0 ≤ 1 / (2 * b) := by positivity
  have i1 : 1 / (2 * b) ≤ 32 := by rw [div_le_iff₀ (by linarith)]; linarith
  have inv_err : |fl (1 / (2 * b)) - 1 / (2 * b)| ≤ 32 * U := by
    have := fl_err_le (x := 1 / (2 * b)) (k := 5) (by norm_num) (by rw [abs_of_nonneg i0]; norm_num; norm_num at i1; exact i1)
    unfold U; norm_num at this ⊢; exact this
  have rh : Rep 32 := ⟨1, 5, by norm_num, by norm_num, by norm_num⟩
  obtain ⟨iv0, iv1⟩ := fl_mem rep_zero rh ⟨i0, i1⟩
  obtain ⟨iv, hiv⟩ : ∃ iv, fl (1 / (2 * b)) = iv := ⟨_, rfl⟩
  rw [hiv] at inv_err iv0 iv1 ⊢
  obtain ⟨s, hs'⟩ : ∃ s, hi - lo = s := ⟨_, rfl⟩
  have hl := abs_le.mp bl
  have hh := abs_le.mp bh
  have sM : |s| ≤ 2 * M := by rw [← hs', abs_le]; constructor <;> linarith
  rw [hs']
  -- the factor
  have ivs : |iv * s| ≤ 2 ^ 6 * M := by
    rw [abs_mul, abs_of_nonneg iv0]
    have := mul_le_mul iv1 sM (abs_nonneg _) (by norm_num)
    linarith
  have fe := round 6 (iv * s) ivs
  obtain ⟨f, hf⟩ : ∃ f, mul iv s = f := ⟨_, rfl⟩
  have hf' : fl (iv * s) = f := hf
  rw [hf'] at fe
  rw [hf]
  have hq : 1 / (2 * b) * s = s / (2 * b) := by ring
  have ferr : |f - s / (2 * b)| ≤ 128 * U * M := by
    have e : f - s / (2 * b) = (f - iv * s) + (iv - 1 / (2 * b)) * s := by ring
    rw [e]
    refine (abs_add_le _ _).trans ?_
    rw [abs_mul]
    have := mul_le_mul inv_err sM (abs_nonneg _) (by linarith)
    linarith
  have hsb : |s / (2 * b)| ≤ M / b := by
    rw [abs_div, abs_of_pos (by linarith : 0 < 2 * b), div_le_div_iff₀ (by linarith) (by linarith)]
    nlinarith
  have hMb : M / b ≤ 39 * M := by rw [div_le_iff₀ (by linarith)]; nlinarith
  -- the shifted value
  have hub := abs_le.mp hu
  have hdb := abs_le.mp hd
  have wr : |fl (v - -b) - (v - -b)| ≤ U / 2 ^ 4 := rndP (x := v - -b) (j := 4) le_rfl (by rw [abs_le]; constructor <;> norm_num at * <;> linarith)
  have hw' : sub v (-b) = fl (v - -b) := rfl
  rw [hw']
  obtain ⟨w, hw⟩ : ∃ w, fl (v - -b) = w := ⟨_, rfl⟩
  rw [hw] at wr ⊢
  have wrb := abs_le.mp wr
  have w4 : |w| ≤ 1 / 16 := by rw [abs_le]; constructor <;> linarith
  have werr : |w - (u - -b)| ≤ U / 16 + δ := by rw [abs_le]; constructor <;> linarith
  have perr : |f * w - s / (2 * b) * (u - -b)| ≤ 10.5 * U * M + δ / b * M := by
    have e : f * w - s / (2 * b) * (u - -b) = (f - s / (2 * b)) * w + s / (2 * b) * (w - (u - -b)) := by ring
    rw [e]
    refine (abs_add_le _ _).trans ?_
    rw [abs_mul, abs_mul]
    have a1 := mul_le_mul ferr w4 (abs_nonneg _) (by positivity)
    have a2 := mul_le_mul hsb werr (abs_nonneg _) (by positivity)
    have a3 : M / b * (U / 16) ≤ 39 * M * (U / 16) := mul_le_mul_of_nonneg_right hMb (by positivity)
    have a4 : M / b * (U / 16 + δ) = M / b * (U / 16) + δ / b * M := by ring
    rw [a4] at a2
    have : 0 < U * M := by positivity
    linarith
  have hx : s / (2 * b) * (u - -b) = s / 2 + s / (2 * b) * u := by field_simp; ring
  have sub' : |s / (2 * b) * u| ≤ M := by
    rw [abs_mul]
    have := mul_le_mul hsb hu (abs_nonneg _) (by positivity)
    have e : M / b * b = M := by field_simp
    linarith
  have subb := abs_le.mp sub'
  have hsMb := abs_le.mp sM
  have δb : δ / b ≤ 1 / 1000 := by rw [div_le_iff₀ (by linarith)]; linarith
  have δM : δ / b * M ≤ 1 / 1000 * M := mul_le_mul_of_nonneg_right δb hpk.le
  have UM : U * M ≤ 1 / 10000000 * M := mul_le_mul_of_nonneg_right hs hpk.le
  have UM0 : 0 ≤ U * M := by positivity
  have perb := abs_le.mp perr
  have fw : |f * w| ≤ 2 ^ 2 * M := by rw [abs_le]; constructor <;> linarith
  have r1 := abs_le.mp (round 2 _ fw)
  unfold fma Num.fma
  rw [hq]
  have fin : ∀ p : ℝ, |p - f * w| ≤ 4 * (U * M) → |fl (p + lo) - (s / (2 * b) * (u - -b) + lo)| ≤ (δ / b + 20 * U) * M := by
    intro p hp
    have hp' := abs_le.mp hp
    have r2 := abs_le.mp (round 2 (p + lo) (by rw [abs_le]; constructor <;> linarith))
    rw [abs_le]; constructor <;> linarith
  split
  · exact fin _ (by rw [sub_self, abs_zero]; positivity)
  · exact fin _ (by unfold mul; rw [abs_le]; constructor <;> linarith)

end
end FastNoise.F32
