import Verif.FloatCellular
import Verif.FloatErrLemmas
import Verif.CellularProps
/-! # Rounding in cellular noise -/
namespace FastNoise.FloatCellular
open FastNoise.Hash FastNoise.Num FastNoise.Basic FastNoise.F32
open FastNoise.Cellular (Cfg Tab tab nested cellHash normSq)

/-! ## One operation -/

/-- Relative error, and the absolute error of the subnormal numbers. -/
theorem fl_mix (x : ℝ) : |fl x - x| ≤ |x| / 2 ^ 24 + 2 ^ (-150 : ℤ) := by
  have hp := two_zpow_pos (-150)
  by_cases h : (2 : ℝ) ^ (-126 : ℤ) ≤ |x|
  · have := fl_rel h; linarith
  · have h1 : |x| < 2 ^ (-125 : ℤ) := lt_trans (not_le.mp h) (by norm_num)
    have := fl_err_lt (k := -125) (by norm_num) h1
    norm_num at this ⊢
    have := abs_nonneg x
    linarith

/-- Both forms of multiply-add. -/
theorem fma_cases (L : Level) (a b c : ℝ) : F32.fma L a b c = fl (a * b + c) ∨ F32.fma L a b c = fl (fl (a * b) + c) := by
  unfold F32.fma; split
  · exact Or.inl rfl
  · exact Or.inr rfl

theorem fma_exact (L : Level) {a b c : ℝ} (h1 : Rep (a * b)) (h2 : Rep (a * b + c)) : F32.fma L a b c = a * b + c := by
  rcases fma_cases L a b c with e | e <;> rw [e]
  · exact fl_rep h2
  · rw [fl_rep h1, fl_rep h2]

/-- Error of a multiply-add whose product is at most 1 and whose sum is at most `2^k`, `0 ≤ k`. -/
theorem fma_err (L : Level) {a b c : ℝ} {k : ℤ} (hk : 0 ≤ k) (h1 : |a * b| ≤ 1) (h2 : |a * b + c| + 2 ^ (-25 : ℤ) ≤ 2 ^ k) :
    |F32.fma L a b c - (a * b + c)| ≤ 2 ^ (k - 25) + 2 ^ (-25 : ℤ) := by
  have hp := two_zpow_pos (-25)
  have hm := fl_err_le (k := 0) (by norm_num) (x := a * b) (by simpa using h1)
  norm_num only [] at hm
  rcases fma_cases L a b c with e | e <;> rw [e]
  · have := fl_err_le (k := k) (by omega) (x := a * b + c) (by linarith)
    linarith
  · have h3 : |fl (a * b) + c| ≤ 2 ^ k := by
      have : fl (a * b) + c = (fl (a * b) - a * b) + (a * b + c) := by ring
      rw [this]
      refine (abs_add_le _ _).trans ?_
      have : (2 : ℝ) ^ (-25 : ℤ) = 1 / 33554432 := by norm_num
      rw [this] at h2
      linarith
    have := fl_err_le (k := k) (by omega) h3
    have e2 : fl (fl (a * b) + c) - (a * b + c) = (fl (fl (a * b) + c) - (fl (a * b) + c)) + (fl (a * b) - a * b) := by ring
    rw [e2]
    refine (abs_add_le _ _).trans ?_
    have : (2 : ℝ) ^ (-25 : ℤ) = 1 / 33554432 := by norm_num
    rw [this]
    linarith

/-! ## The direction of a feature point is exact -/

theorem rep_half {n : ℤ} (h : |n| ≤ 2 ^ 24) : Rep ((n : ℝ) / 2) := ⟨n, -1, h, by norm_num, by norm_num; ring⟩
theorem rep_quarter {n : ℤ} (h : |n| ≤ 2 ^ 24) : Rep ((n : ℝ) / 4) := ⟨n, -2, h, by norm_num, by norm_num; ring⟩

theorem field_exact {i : I32} {k : ℕ} (hk : k < 2048) (h : i.toInt = k) (M : ℤ) (hM : |M| ≤ 2048) :
    sub (conv i) ((M : ℝ) / 2) = (i.toInt : ℝ) - (M : ℝ) / 2 := by
  have h1 : |i.toInt| ≤ 2 ^ 24 := by rw [h, abs_le]; omega
  unfold conv sub
  rw [fl_rep (rep_int h1)]
  have : ((i.toInt : ℝ) - (M : ℝ) / 2) = ((2 * i.toInt - M : ℤ) : ℝ) / 2 := by push_cast; ring
  rw [this]
  apply fl_rep
  apply rep_half
  rw [abs_le] at *
  omega

theorem off_eq (pos : Pos) (h : I32) : off pos.length h = (tab pos).off h := by
  have a1 : (h &&& 0x7ff).toInt = ((h.toNat % 2 ^ 11 : ℕ) : ℤ) := field_low h 11 (by omega)
  have a2 : (h &&& 0x3ff).toInt = ((h.toNat % 2 ^ 10 : ℕ) : ℤ) := field_low h 10 (by omega)
  have a3 : (h &&& 0xff).toInt = ((h.toNat % 2 ^ 8 : ℕ) : ℤ) := field_low h 8 (by omega)
  have b1 : (h.sshiftRight 11 &&& 0x3ff).toInt = ((h.toNat / 2 ^ 11 % 2 ^ 10 : ℕ) : ℤ) := field_sar h 11 10 (by omega) (by omega)
  have b2 : (h.sshiftRight 8 &&& 0xff).toInt = ((h.toNat / 2 ^ 8 % 2 ^ 8 : ℕ) : ℤ) := field_sar h 8 8 (by omega) (by omega)
  have b3 : (h.sshiftRight 16 &&& 0xff).toInt = ((h.toNat / 2 ^ 16 % 2 ^ 8 : ℕ) : ℤ) := field_sar h 16 8 (by omega) (by omega)
  have c1 : (h >>> 21).toInt = ((h.toNat / 2 ^ 21 % 2 ^ 11 : ℕ) : ℤ) := field_top h 21 11 (by omega) (by omega)
  have c2 : (h >>> 22).toInt = ((h.toNat / 2 ^ 22 % 2 ^ 10 : ℕ) : ℤ) := field_top h 22 10 (by omega) (by omega)
  have c3 : (h >>> 24).toInt = ((h.toNat / 2 ^ 24 % 2 ^ 8 : ℕ) : ℤ) := field_top h 24 8 (by omega) (by omega)
  have a1 := field_exact (by omega) a1 0x7ff (by norm_num)
  have a2 := field_exact (by omega) a2 0x3ff (by norm_num)
  have a3 := field_exact (by omega) a3 0xff (by norm_num)
  have b1 := field_exact (by omega) b1 0x3ff (by norm_num)
  have b2 := field_exact (by omega) b2 0xff (by norm_num)
  have b3 := field_exact (by omega) b3 0xff (by norm_num)
  have c1 := field_exact (by omega) c1 0x7ff (by norm_num)
  have c2 := field_exact (by omega) c2 0x3ff (by norm_num)
  have c3 := field_exact (by omega) c3 0xff (by norm_num)
  simp only [Int.cast_ofNat] at a1 a2 a3 b1 b2 b3 c1 c2 c3
  unfold off tab
  split
  · simp only [Cellular.tab2, a1, c1]
  · split
    · simp only [Cellular.tab3, a2, b1, c2]
    · simp only [Cellular.tab4, a3, b2, b3, c3]

/-- The direction as half integers small enough for exact squares. -/
theorem off_half (pos : Pos) (h2 : 2 ≤ pos.length) (h4 : pos.length ≤ 4) (h : I32) :
    ∃ ns : List ℤ, (tab pos).off h = ns.map (fun n : ℤ => (n : ℝ) / 2) ∧ (ns.map (fun n => n ^ 2)).sum ≤ 2 ^ 24 := by
  rw [Cellular.off_eq pos h2 h4 h]
  have hb : ∀ lo w : ℕ, Cellular.hashBits h lo w < 2 ^ w := fun lo w => Nat.mod_lt _ (by positivity)
  have sq : ∀ lo w : ℕ, (2 * (Cellular.hashBits h lo w : ℤ) - (2 ^ w - 1)) ^ 2 ≤ (2 ^ w) ^ 2 := by
    intro lo w
    have h1 := hb lo w
    have h1' : (Cellular.hashBits h lo w : ℤ) < 2 ^ w := by exact_mod_cast h1
    have h0 : (0 : ℤ) ≤ Cellular.hashBits h lo w := by positivity
    rw [sq_le_sq, abs_of_nonneg (by positivity : (0 : ℤ) ≤ 2 ^ w), abs_le]
    constructor <;> linarith
  rcases (by omega : pos.length = 2 ∨ pos.length = 3 ∨ pos.length = 4) with e | e | e <;> rw [e]
  · refine ⟨[2 * (Cellular.hashBits h 0 11 : ℤ) - (2 ^ 11 - 1), 2 * (Cellular.hashBits h 21 11 : ℤ) - (2 ^ 11 - 1)], ?_, ?_⟩
    · simp only [Cellular.direction, List.map_cons, List.map_nil]; push_cast; congr 1; · ring
      congr 1; ring
    · have := sq 0 11; have := sq 21 11
      simp only [List.map_cons, List.map_nil, List.sum_cons, List.sum_nil]; linarith
  · refine ⟨[2 * (Cellular.hashBits h 0 10 : ℤ) - (2 ^ 10 - 1), 2 * (Cellular.hashBits h 11 10 : ℤ) - (2 ^ 10 - 1), 2 * (Cellular.hashBits h 22 10 : ℤ) - (2 ^ 10 - 1)], ?_, ?_⟩
    · simp only [Cellular.direction, List.map_cons, List.map_nil]; push_cast; congr 1; · ring
      congr 1; · ring
      congr 1; ring
    · have := sq 0 10; have := sq 11 10; have := sq 22 10
      simp only [List.map_cons, List.map_nil, List.sum_cons, List.sum_nil]; linarith
  · refine ⟨[2 * (Cellular.hashBits h 0 8 : ℤ) - (2 ^ 8 - 1), 2 * (Cellular.hashBits h 8 8 : ℤ) - (2 ^ 8 - 1), 2 * (Cellular.hashBits h 16 8 : ℤ) - (2 ^ 8 - 1),
      2 * (Cellular.hashBits h 24 8 : ℤ) - (2 ^ 8 - 1)], ?_, ?_⟩
    · simp only [Cellular.direction, List.map_cons, List.map_nil]; push_cast; congr 1; · ring
      congr 1; · ring
      congr 1; · ring
      congr 1; ring
    · have := sq 0 8; have := sq 8 8; have := sq 16 8; have := sq 24 8
      simp only [List.map_cons, List.map_nil, List.sum_cons, List.sum_nil]; linarith

theorem sum_sq_nonneg (l : List ℤ) : 0 ≤ (l.map (fun n => n ^ 2)).sum := by
  induction l with
  | nil => simp
  | cons a t ih => rw [List.map_cons, List.sum_cons]; positivity

theorem normSq_half (ns : List ℤ) : normSq (ns.map (fun n : ℤ => (n : ℝ) / 2)) = ((ns.map (fun n => n ^ 2)).sum : ℤ) / 4 := by
  induction ns with
  | nil => simp
  | cons a t ih => rw [List.map_cons, Cellular.normSq_cons, ih, List.map_cons, List.sum_cons]; push_cast; ring

/-- The squared length of the direction is computed exactly. -/
theorem magSq_exact (L : Level) (ns : List ℤ) (h : (ns.map (fun n => n ^ 2)).sum ≤ 2 ^ 24) :
    magSq L (ns.map (fun n : ℤ => (n : ℝ) / 2)) = normSq (ns.map (fun n : ℤ => (n : ℝ) / 2)) := by
  induction ns with
  | nil => simp [magSq]
  | cons a t ih =>
    rw [List.map_cons, List.sum_cons] at h
    have ht := sum_sq_nonneg t
    have ha : 0 ≤ a ^ 2 := sq_nonneg a
    have r1 : Rep ((a : ℝ) / 2 * ((a : ℝ) / 2)) := by
      have := rep_quarter (n := a ^ 2) (by rw [abs_of_nonneg ha]; omega)
      push_cast at this
      convert this using 1; ring
    have r2 : Rep ((a : ℝ) / 2 * ((a : ℝ) / 2) + normSq (t.map (fun n : ℤ => (n : ℝ) / 2))) := by
      have := rep_quarter (n := a ^ 2 + (t.map (fun n => n ^ 2)).sum) (by rw [abs_of_nonneg (by omega)]; omega)
      rw [normSq_half]
      push_cast at this ⊢
      convert this using 1; ring
    cases t with
    | nil => simp only [List.map_cons, List.map_nil, magSq, Cellular.normSq_cons, Cellular.normSq_nil, mul]; rw [fl_rep r1]; ring
    | cons b u =>
      rw [List.map_cons, Cellular.normSq_cons]
      show F32.fma L _ _ (magSq L ((b :: u).map _)) = _
      rw [ih (by omega), fma_exact L r1 r2]; ring

end FastNoise.FloatCellular
