import Verif.GradientSpec
import Verif.HashProps
import Mathlib.Tactic.FinCases
import Mathlib.Tactic.IntervalCases
import Mathlib.Tactic.Ring
import Mathlib.Tactic.Linarith
/-! # Lemmas on gradient selection -/
namespace FastNoise.Gradient
open FastNoise.Hash

/-! ## Bit lemmas -/

theorem msb_shl (x : I32) (k : Nat) (hk : k ≤ 31) : (x <<< k).msb = decide (x.toNat / 2 ^ (31 - k) % 2 = 1) := by
  rw [BitVec.msb_shiftLeft, BitVec.getMsbD_eq_getLsbD]
  have : k < 32 := by omega
  simp only [this, decide_true, Bool.true_and]
  rw [show 32 - 1 - k = 31 - k by omega, ← BitVec.testBit_toNat, Nat.testBit_eq_decide_div_mod_eq]

theorem msb_sar_shl (x : I32) (j : Nat) (hj : j ≤ 31) : (x.sshiftRight j <<< 31).msb = decide (x.toNat / 2 ^ j % 2 = 1) := by
  rw [BitVec.msb_shiftLeft, BitVec.getMsbD_eq_getLsbD]
  have e : (x.sshiftRight j).getLsbD 0 = x.getLsbD j := by
    rw [BitVec.getLsbD_sshiftRight]
    simp only [Nat.add_zero]
    rw [if_pos (by omega)]; simp
  show (decide (31 < 32) && (x.sshiftRight j).getLsbD 0) = _
  rw [e, ← BitVec.testBit_toNat, Nat.testBit_eq_decide_div_mod_eq]
  simp

theorem msb_eq (x : I32) : x.msb = decide (x.toNat / 2 ^ 31 % 2 = 1) := by
  have := msb_shl x 0 (by omega)
  simpa using this

theorem msb_sar (x : I32) (j : Nat) : (x.sshiftRight j).msb = x.msb := by simp [BitVec.msb_sshiftRight]

/-- Masking with a constant below 2^k sees the low k bits only. -/
theorem and_low (x c : I32) (k : Nat) (hc : c.toNat < 2 ^ k) : (x &&& c) = BitVec.ofNat 32 (x.toNat % 2 ^ k) &&& c := by
  apply BitVec.eq_of_getLsbD_eq
  intro i hi
  simp only [BitVec.getLsbD_and, BitVec.getLsbD_ofNat, hi, decide_true, Bool.true_and, Nat.testBit_mod_two_pow]
  by_cases h : i < k
  · simp [h, BitVec.testBit_toNat]
  · have : c.getLsbD i = false := by
      rw [← BitVec.testBit_toNat]
      exact Nat.testBit_lt_two_pow (lt_of_lt_of_le hc (Nat.pow_le_pow_right (by omega) (by omega)))
    simp [this]

/-- Low bits of an arithmetic shift. -/
theorem sar_mod (x : I32) (j k : Nat) (hj : j + k = 32) : (x.sshiftRight j).toNat % 2 ^ k = x.toNat / 2 ^ j := by
  apply Nat.eq_of_testBit_eq
  intro i
  rw [Nat.testBit_mod_two_pow, BitVec.testBit_toNat, ← Nat.shiftRight_eq_div_pow, Nat.testBit_shiftRight, BitVec.testBit_toNat]
  by_cases h : i < k
  · rw [BitVec.getLsbD_sshiftRight, if_pos (by omega)]
    simp [h, show ¬ 32 ≤ i by omega]
  · simp only [h, decide_false, Bool.false_and]
    symm
    exact BitVec.getLsbD_of_ge _ _ (by omega)

theorem shr_toNat (x : I32) (j : Nat) : (x >>> j).toNat = x.toNat / 2 ^ j := by
  rw [BitVec.toNat_ushiftRight, Nat.shiftRight_eq_div_pow]

/-! ## Perlin gradients -/

theorem dotPerlin2_eq (ft : Feat) (h : I32) (x y : ℝ) : dotPerlin2 ft h x y = dot2 (perlin2 (low 3 h)) x y := by
  have hb : h.toNat % 16 < 16 := Nat.mod_lt _ (by omega)
  have el : low 3 h = ⟨h.toNat % 16 % 8, by omega⟩ := Fin.ext (by show h.toNat % 8 = h.toNat % 16 % 8; omega)
  have b0 : (h <<< 31).msb = decide (h.toNat % 16 % 2 = 1) := by rw [msb_shl _ _ (by omega)]; exact decide_eq_decide.mpr (by simp only [Nat.reducePow, Nat.reduceSub]; omega)
  have b1 : (h.sshiftRight 1 <<< 31).msb = decide (h.toNat % 16 / 2 % 2 = 1) := by rw [msb_sar_shl _ _ (by omega)]; exact decide_eq_decide.mpr (by simp only [Nat.reducePow, Nat.reduceSub]; omega)
  have b2 : (h <<< 29).msb = decide (h.toNat % 16 / 4 % 2 = 1) := by rw [msb_shl _ _ (by omega)]; exact decide_eq_decide.mpr (by simp only [Nat.reducePow, Nat.reduceSub]; omega)
  have e8 : h.toNat % 8 = h.toNat % 16 % 8 := by omega
  unfold dotPerlin2 dot2
  simp only [el, b0, b1, b2, e8, xorSign, selectHighBit, perm16, perm8, fma]
  obtain ⟨r, e⟩ : ∃ r, h.toNat % 16 = r := ⟨_, rfl⟩
  rw [e] at hb
  simp only [e]
  rcases ft with ⟨_, _, _, a2, a5⟩
  cases a5 <;> cases a2 <;> interval_cases r <;> simp [perlin2, root2] <;> try (ring_nf; try simp)

theorem dotCommon_eq (ft : Feat) (h : I32) (x y z : ℝ) : dotCommon ft h x y z = dot3 (common3 (low 4 h)) x y z := by
  have hb : h.toNat % 16 < 16 := Nat.mod_lt _ (by omega)
  have el : low 4 h = ⟨h.toNat % 16, hb⟩ := rfl
  have b0 : (h <<< 31).msb = decide (h.toNat % 16 % 2 = 1) := by rw [msb_shl _ _ (by omega)]; exact decide_eq_decide.mpr (by simp only [Nat.reducePow, Nat.reduceSub]; omega)
  have b1 : (h.sshiftRight 1 <<< 31).msb = decide (h.toNat % 16 / 2 % 2 = 1) := by rw [msb_sar_shl _ _ (by omega)]; exact decide_eq_decide.mpr (by simp only [Nat.reducePow, Nat.reduceSub]; omega)
  have b3 : (h <<< 28).msb = decide (h.toNat % 16 / 8 % 2 = 1) := by rw [msb_shl _ _ (by omega)]; exact decide_eq_decide.mpr (by simp only [Nat.reducePow, Nat.reduceSub]; omega)
  have a13 : h &&& 13 = BitVec.ofNat 32 (h.toNat % 16) &&& 13 := and_low h 13 4 (by decide)
  unfold dotCommon dot3
  simp only [el, b0, b1, b3, a13, xorSign, select, perm16, fma]
  obtain ⟨r, e⟩ : ∃ r, h.toNat % 16 = r := ⟨_, rfl⟩
  rw [e] at hb
  simp only [e]
  rcases ft with ⟨_, s4, _, _, a5⟩
  cases a5 <;> cases s4 <;> interval_cases r <;> simp [common3] <;> try (ring_nf; try simp)

theorem dotPerlin4_eq (ft : Feat) (h : I32) (x y z w : ℝ) : dotPerlin4 ft h x y z w = dot4 (perlin4 (low 5 h)) x y z w := by
  have hb : h.toNat % 32 < 32 := Nat.mod_lt _ (by omega)
  have el : low 5 h = ⟨h.toNat % 32, hb⟩ := rfl
  have b0 : (h <<< 31).msb = decide (h.toNat % 32 % 2 = 1) := by rw [msb_shl _ _ (by omega)]; exact decide_eq_decide.mpr (by simp only [Nat.reducePow, Nat.reduceSub]; omega)
  have b1 : (h.sshiftRight 1 <<< 31).msb = decide (h.toNat % 32 / 2 % 2 = 1) := by rw [msb_sar_shl _ _ (by omega)]; exact decide_eq_decide.mpr (by simp only [Nat.reducePow, Nat.reduceSub]; omega)
  have b2 : (h.sshiftRight 2 <<< 31).msb = decide (h.toNat % 32 / 4 % 2 = 1) := by rw [msb_sar_shl _ _ (by omega)]; exact decide_eq_decide.mpr (by simp only [Nat.reducePow, Nat.reduceSub]; omega)
  have b4 : (h <<< 27).msb = decide (h.toNat % 32 / 16 % 2 = 1) := by rw [msb_shl _ _ (by omega)]; exact decide_eq_decide.mpr (by simp only [Nat.reducePow, Nat.reduceSub]; omega)
  have a : h &&& (3 <<< 3) = BitVec.ofNat 32 (h.toNat % 32) &&& (3 <<< 3) := and_low h _ 5 (by decide)
  unfold dotPerlin4 dot4
  simp only [el, b0, b1, b2, b4, a, xorSign, select, selectHighBit, perm32, fma]
  obtain ⟨r, e⟩ : ∃ r, h.toNat % 32 = r := ⟨_, rfl⟩
  rw [e] at hb
  simp only [e]
  rcases ft with ⟨_, _, _, _, a5⟩
  cases a5 <;> interval_cases r <;> simp [perlin4, sgn, Nat.testBit_eq_decide_div_mod_eq] <;> try (ring_nf; try simp)

/-! ## Simplex gradients -/

/-- The selector of the 2D simplex gradient, [0,12) for a 31 bit hash. -/
theorem simplex2_lt (h : I32) (hm : h.msb = false) : ((h >>> 1) * 3).toNat / 2 ^ 28 < 12 := by
  have h31 : h.toNat < 2 ^ 31 := by
    rw [msb_eq] at hm
    have := h.isLt
    simp at hm
    omega
  rw [BitVec.toNat_mul, shr_toNat, show BitVec.toNat (3 : I32) = 3 from rfl, Nat.mod_eq_of_lt (by omega)]
  omega

theorem simplex4_lt (h : I32) (hm : h.msb = false) : ((h >>> 2) * 5).toNat / 2 ^ 27 < 20 := by
  have h31 : h.toNat < 2 ^ 31 := by
    rw [msb_eq] at hm
    have := h.isLt
    simp at hm
    omega
  rw [BitVec.toNat_mul, shr_toNat, show BitVec.toNat (5 : I32) = 5 from rfl, Nat.mod_eq_of_lt (by omega)]
  omega

/-- The 2D simplex gradient as a function of the scaled hash `d`. -/
theorem dotSimplex2_aux (ft : Feat) (h d : I32) (hd : (h >>> 1) * 3 = d) (x y : ℝ) (r : Nat) (hb : r < 12) (e : d.toNat / 2 ^ 28 = r) :
    dotSimplex2 ft h x y = dot2 (simplex2 ⟨r, hb⟩) x y := by
  unfold dotSimplex2 dot2
  rw [hd]
  have b31 : d.msb = decide (r / 8 % 2 = 1) := by rw [msb_eq]; exact decide_eq_decide.mpr (by simp only [Nat.reducePow] at *; omega)
  have b29 : (d <<< 2).msb = decide (r / 2 % 2 = 1) := by rw [msb_shl _ _ (by omega)]; exact decide_eq_decide.mpr (by simp only [Nat.reducePow, Nat.reduceSub] at *; omega)
  have b30 : (d.sshiftRight 30 <<< 31).msb = decide (r / 4 % 2 = 1) := by rw [msb_sar_shl _ _ (by omega)]; exact decide_eq_decide.mpr (by simp only [Nat.reducePow] at *; omega)
  have b28 : (d.sshiftRight 28 <<< 31).msb = decide (r % 2 = 1) := by rw [msb_sar_shl _ _ (by omega), e]
  have bs : (d.sshiftRight 31).msb = d.msb := msb_sar _ _
  have bl : BitVec.sle 0 d = !d.msb := BitVec.zero_sle_eq_not_msb
  have e28 : (d.sshiftRight 28).toNat % 16 = r := (sar_mod d 28 4 rfl).trans e
  have e29 : (d.sshiftRight 29).toNat % 8 = r / 2 := by rw [show (8 : Nat) = 2 ^ 3 from rfl, sar_mod d 29 3 rfl]; omega
  simp only [bs, bl, b30, b28, b29, b31, e28, e29, xorSign, selectHighBit, maskedAdd, invMaskedAdd, perm16, perm8, fma]
  clear hd e b31 b29 b30 b28 bs bl e28 e29
  rcases ft with ⟨x8, _, _, a2, a5⟩
  cases a5 <;> cases a2 <;> cases x8 <;> interval_cases r <;> simp [simplex2, root3] <;> try (ring_nf; try simp)

theorem dotSimplex2_eq (ft : Feat) (h : I32) (hm : h.msb = false) (x y : ℝ) :
    dotSimplex2 ft h x y = dot2 (simplex2 ⟨_, simplex2_lt h hm⟩) x y :=
  dotSimplex2_aux ft h _ rfl x y _ _ rfl

/-- Masking with constants from bit 27 up sees the upper five bits only. -/
theorem and_high (x : I32) (c : I32) (hc : c &&& 0x7ffffff = 0) : x &&& c = (BitVec.ofNat 32 (x.toNat / 2 ^ 27) <<< 27) &&& c := by
  apply BitVec.eq_of_getLsbD_eq
  intro i hi
  simp only [BitVec.getLsbD_and, BitVec.getLsbD_shiftLeft, BitVec.getLsbD_ofNat, hi, decide_true, Bool.true_and]
  by_cases h : i < 27
  · have : c.getLsbD i = false := by
      have m : (134217727#32).getLsbD i = true := by
        have : ∀ j : Fin 27, (134217727#32).getLsbD j = true := by decide
        exact this ⟨i, h⟩
      have t : (c.getLsbD i && (134217727#32).getLsbD i) = false := by rw [← BitVec.getLsbD_and, show c &&& 134217727#32 = 0 from hc]; simp
      rw [m, Bool.and_true] at t
      exact t
    simp [this]
  · simp only [h, decide_false, Bool.not_false, Bool.true_and, ← Nat.shiftRight_eq_div_pow, Nat.testBit_shiftRight,
      BitVec.testBit_toNat, show i - 27 < 32 by omega, show 27 + (i - 27) = i by omega, decide_true]

theorem sar2_and (x : I32) : x.sshiftRight 2 &&& 939524096#32 = (BitVec.ofNat 32 (x.toNat / 2 ^ 27) <<< 27).sshiftRight 2 &&& 939524096#32 := by
  apply BitVec.eq_of_getLsbD_eq
  intro i hi
  simp only [BitVec.getLsbD_and]
  by_cases h : i < 27
  · have m : (939524096#32).getLsbD i = false := by
        have : ∀ j : Fin 27, (939524096#32).getLsbD j = false := by decide
        exact this ⟨i, h⟩
    simp [m]
  · have hx : ∀ j, 27 ≤ j → j < 32 → x.getLsbD j = (BitVec.ofNat 32 (x.toNat / 2 ^ 27) <<< 27).getLsbD j := by
      intro j h1 h2
      simp only [BitVec.getLsbD_shiftLeft, BitVec.getLsbD_ofNat, h2, decide_true, Bool.true_and, show ¬ j < 27 by omega, decide_false,
        Bool.not_false, ← Nat.shiftRight_eq_div_pow, Nat.testBit_shiftRight, BitVec.testBit_toNat, show j - 27 < 32 by omega, show 27 + (j - 27) = j by omega]
    suffices q : (x.sshiftRight 2).getLsbD i = ((BitVec.ofNat 32 (x.toNat / 2 ^ 27) <<< 27).sshiftRight 2).getLsbD i by rw [q]
    rw [BitVec.getLsbD_sshiftRight, BitVec.getLsbD_sshiftRight]
    simp only [show ¬ 32 ≤ i by omega, decide_false, Bool.not_false, Bool.true_and]
    split
    · exact hx _ (by omega) (by omega)
    · rw [BitVec.msb_eq_getLsbD_last, BitVec.msb_eq_getLsbD_last]; exact hx _ (by omega) (by omega)

theorem simplexGrad4_eq (d : I32) (r : Nat) (hb : r < 20) (e : d.toNat / 2 ^ 27 = r) : simplexGrad4 d = simplex4 ⟨r, hb⟩ := by
  unfold simplexGrad4
  rw [and_high d (0x03 <<< 27) (by decide), show d.sshiftRight 2 &&& (0x07 <<< 27) = _ from sar2_and d, e]
  interval_cases r <;> simp [simplex4, incDec, skew4] <;> ring

theorem dotSimplex4_aux (ft : Feat) (h : I32) (x y z w : ℝ) (r : Nat) (hlt : r < 20) (e : ((h >>> 2) * 5).toNat / 2 ^ 27 = r) :
    dotSimplex4 ft h x y z w = dot4 (simplex4 ⟨r, hlt⟩) x y z w := by
  have g := simplexGrad4_eq _ r hlt e
  unfold dotSimplex4 dot4
  simp only [g, perm32, shr_toNat, e, fma]
  clear g e
  rcases ft with ⟨_, _, _, _, a5⟩
  cases a5
  · simp only [Bool.false_eq_true, if_false]; ring
  · simp only [if_true]
    interval_cases r <;> simp [simplex4, tableX, tableY, tableZ, tableW, skew4] <;> try (ring_nf; try simp)

theorem dotSimplex4_eq (ft : Feat) (h : I32) (hm : h.msb = false) (x y z w : ℝ) :
    dotSimplex4 ft h x y z w = dot4 (simplex4 ⟨_, simplex4_lt h hm⟩) x y z w :=
  dotSimplex4_aux ft h x y z w _ _ rfl

end FastNoise.Gradient
