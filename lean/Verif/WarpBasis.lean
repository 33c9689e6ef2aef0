import Verif.WarpBasisSpec
import Verif.WarpSimplexLemmas
/-! # Lemmas on the 4D matrices: the bit tricks of the three code variants select the bases of the specification -/
namespace FastNoise.WarpGrad
open FastNoise.Hash FastNoise.Gradient Matrix FastNoise.WarpSimplex

noncomputable section

/-- The columns of a matrix. -/
def colsOf (M : Matrix (Fin 4) (Fin 4) ℝ) : Col × Col × Col × Col :=
  ((M 0 0, M 1 0, M 2 0, M 3 0), (M 0 1, M 1 1, M 2 1, M 3 1), (M 0 2, M 1 2, M 2 2, M 3 2), (M 0 3, M 1 3, M 2 3, M 3 3))

/-- The five upper bits. -/
def top (k : Nat) : I32 := BitVec.ofNat 32 (k * 2 ^ 27)

theorem top_bits {b : I32} {k : Nat} (hk : k < 32) (h : b.toNat / 2 ^ 27 = k) (i : Nat) (hi : 27 ≤ i) : b.getLsbD i = (top k).getLsbD i := by
  have ht : (top k).toNat = k * 2 ^ 27 := by
    simp only [top, BitVec.toNat_ofNat]; omega
  simp only [BitVec.getLsbD, Nat.testBit, ht]
  have : ∀ m : Nat, m >>> i = (m / 2 ^ 27) >>> (i - 27) := by
    intro m
    rw [Nat.shiftRight_eq_div_pow, Nat.shiftRight_eq_div_pow, Nat.div_div_eq_div_mul, ← pow_add]
    congr 2; omega
  rw [this b.toNat, this (k * 2 ^ 27), h, Nat.mul_div_cancel _ (by positivity)]

theorem mask_bits (i : Nat) (h : (0x03 <<< 27 : I32).getLsbD i = true) : i = 27 ∨ i = 28 := by
  by_contra hc
  have hi : i < 32 := BitVec.lt_of_getLsbD h
  interval_cases i <;> first | omega | (revert h; decide)

theorem pos_top {b : I32} {k : Nat} (hk : k < 32) (h : b.toNat / 2 ^ 27 = k) : b &&& (0x03 <<< 27) = top k &&& (0x03 <<< 27) := by
  apply BitVec.eq_of_getLsbD_eq
  intro i hi
  simp only [BitVec.getLsbD_and]
  by_cases hm : (0x03 <<< 27 : I32).getLsbD i = true
  · rw [top_bits hk h i (by rcases mask_bits i hm with rfl | rfl <;> norm_num)]
  · rw [Bool.eq_false_of_not_eq_true hm, Bool.and_false, Bool.and_false]

theorem neg_top {b : I32} {k : Nat} (hk : k < 32) (h : b.toNat / 2 ^ 27 = k) : b.sshiftRight 2 &&& (0x03 <<< 27) = (top k).sshiftRight 2 &&& (0x03 <<< 27) := by
  apply BitVec.eq_of_getLsbD_eq
  intro i hi
  simp only [BitVec.getLsbD_and]
  by_cases hm : (0x03 <<< 27 : I32).getLsbD i = true
  · have hi' : i = 27 ∨ i = 28 := mask_bits i hm
    congr 1
    rw [BitVec.getLsbD_sshiftRight, BitVec.getLsbD_sshiftRight, if_pos (by omega), if_pos (by omega), top_bits hk h (2 + i) (by omega)]
  · rw [Bool.eq_false_of_not_eq_true hm, Bool.and_false, Bool.and_false]

theorem slt_top {b : I32} {k : Nat} (hk : k < 32) (h : b.toNat / 2 ^ 27 = k) : BitVec.slt b (0x04 <<< 27) = BitVec.slt (top k) (0x04 <<< 27) := by
  have ht : (top k).toNat = k * 2 ^ 27 := by
    simp only [top, BitVec.toNat_ofNat]; omega
  have hc : (0x04 <<< 27 : I32).toInt = 2 ^ 29 := by decide
  simp only [BitVec.slt, hc, decide_eq_decide, BitVec.toInt_eq_toNat_cond, ht]
  split_ifs <;> omega

theorem sle_min (b : I32) : BitVec.sle (0x10 <<< 27) b = true := by
  have hc : (0x10 <<< 27 : I32).toInt = -2 ^ 31 := by decide
  simp only [BitVec.sle, hc, decide_eq_true_eq]
  exact BitVec.le_toInt b

theorem cols256_top {b : I32} {k : Nat} (hk : k < 32) (h : b.toNat / 2 ^ 27 = k) : cols256 b = cols256 (top k) := by
  unfold cols256
  rw [pos_top hk h, neg_top hk h, sle_min, sle_min]

theorem colsGen_top {b : I32} {k : Nat} (hk : k < 32) (h : b.toNat / 2 ^ 27 = k) : colsGen b = colsGen (top k) := by
  unfold colsGen
  rw [pos_top hk h, neg_top hk h, sle_min, sle_min, slt_top hk h]

theorem cols512_top {b : I32} {k : Nat} (hk : k < 32) (h : b.toNat / 2 ^ 27 = k) : cols512 b = cols512 (top k) := by
  have e : ∀ c : I32, (c.sshiftRight 27).toNat % 32 = c.toNat / 2 ^ 27 := by
    intro c
    have : c.sshiftRight 27 &&& 31#32 = c >>> 27 := by
      apply BitVec.eq_of_getLsbD_eq
      intro i hi
      simp only [BitVec.getLsbD_and, BitVec.getLsbD_sshiftRight, BitVec.getLsbD_ushiftRight]
      by_cases h5 : i < 5
      · rw [if_pos (by omega)]
        have : (31#32).getLsbD i = true := by interval_cases i <;> decide
        rw [this]; simp [hi]
      · have : (31#32).getLsbD i = false := by interval_cases i <;> first | omega | decide
        rw [this, Bool.and_false, BitVec.getLsbD_of_ge _ _ (by omega)]
    have h2 := congrArg BitVec.toNat this
    rw [BitVec.toNat_and, BitVec.toNat_ushiftRight, Nat.shiftRight_eq_div_pow] at h2
    have : (31#32).toNat = 2 ^ 5 - 1 := by decide
    rw [this, Nat.and_two_pow_sub_one_eq_mod] at h2
    exact h2
  have ht : (top k).toNat = k * 2 ^ 27 := by
    simp only [top, BitVec.toNat_ofNat]; omega
  have h2 : k * 2 ^ 27 / 2 ^ 27 = k := Nat.mul_div_cancel _ (by positivity)
  simp only [cols512, perm32, e, h, ht, h2]

theorem gold : goldSkew = skew4 := rfl

set_option linter.unusedSimpArgs false

theorem cols256_eq (k : Fin 20) : cols256 (top k) = colsOf (basis256 k) := by
  fin_cases k <;>
  · simp [cols256, block256, diagABC, perm8, maskedAdd, top, colsOf, basis256, singleBasis, pairBasis, pairCols, singleCol, diagonal, rank, gold, List.finRange]
    (try constructorm* _ ∧ _) <;>
      (simp only [kNegAB, kFillAB, kPosD, kUnD, dSingleAB, dSingleD, dExtra, dABToC, dDiag, root2, sIdxABC, sDiagABC, sFillABC, sIdxD, sFillD, pIdxPosAB, pIdxNegAB, pFillAB, pDiagAB,
        pIdxPosC, pIdxNegC, pFillC, pIdxPosD, pIdxNegD, pFillD, eIdxABC, eDiagABC, eFillABC, eIdxD, eFillD]; try ring)

theorem colsGen_eq (k : Fin 20) : colsGen (top k) = colsOf (basisGeneric k) := by
  fin_cases k <;>
  · simp [colsGen, blockGen, diagABC, maskedAdd, invMaskedAdd, maskedIncrement, maskedDecrement, select, top, colsOf, basisGeneric, singleBasis, pairBasis, pairCols, singleCol, diagonal, rank, gold, List.finRange]
    (try constructorm* _ ∧ _) <;>
      (simp only [kNegAB, kFillAB, kPosD, kUnD, dSingleAB, dSingleD, dExtra, dABToC, dDiag, root2, sIdxABC, sDiagABC, sFillABC, sIdxD, sFillD, pIdxPosAB, pIdxNegAB, pFillAB, pDiagAB,
        pIdxPosC, pIdxNegC, pFillC, pIdxPosD, pIdxNegD, pFillD, eIdxABC, eDiagABC, eFillABC, eIdxD, eFillD]; try ring)

theorem cols512_eq (k : Fin 20) : cols512 (top k) = colsOf (basis512 k) := by
  fin_cases k <;>
  · simp [cols512, perm32, top, colsOf, basis512, singleBasis, pairBasis, pairCols, singleCol, diagonal, rank, gold, List.finRange]
    (try constructorm* _ ∧ _) <;>
      (simp only [kNegAB, kFillAB, kPosD, kUnD, dSingleAB, dSingleD, dExtra, dABToC, dDiag, root2, sIdxABC, sDiagABC, sFillABC, sIdxD, sFillD, pIdxPosAB, pIdxNegAB, pFillAB, pDiagAB,
        pIdxPosC, pIdxNegC, pFillC, pIdxPosD, pIdxNegD, pFillD, eIdxABC, eDiagABC, eFillABC, eIdxD, eFillD]; try ring)

/-- Low bits of an arithmetic shift. -/
theorem sshr_mod (c : I32) (s j : Nat) (h : s + j ≤ 32) : (c.sshiftRight s).toNat % 2 ^ j = c.toNat / 2 ^ s % 2 ^ j := by
  apply Nat.eq_of_testBit_eq
  intro i
  rw [Nat.testBit_mod_two_pow, Nat.testBit_mod_two_pow]
  by_cases hi : i < j
  · have := BitVec.getLsbD_sshiftRight c s i
    rw [if_pos (by omega)] at this
    rw [← BitVec.getLsbD, this, Nat.testBit_div_two_pow]
    have h32 : ¬ 32 ≤ i := by omega
    simp [hi, h32, BitVec.getLsbD, Nat.add_comm]
  · simp [hi]

theorem msb_shl (c : I32) (s : Nat) (h : s < 32) : (c <<< s).msb = c.toNat.testBit (31 - s) := by
  rw [BitVec.msb_eq_getLsbD_last, BitVec.getLsbD_shiftLeft]
  have h1 : ¬ (31 < s) := by omega
  simp [h1, BitVec.getLsbD]

theorem pick_eq (i : I32) (f : Fin 4 → ℝ) : pick i (f 0) (f 1) (f 2) (f 3) = f (Fin.ofNat 4 i.toNat) := by
  have h0 : (i <<< 31).msb = i.toNat.testBit 0 := msb_shl i 31 (by norm_num)
  have h1 : (i <<< 30).msb = i.toNat.testBit 1 := msb_shl i 30 (by norm_num)
  have e0 : i.toNat.testBit 0 = decide (i.toNat % 2 = 1) := Nat.testBit_zero _
  have e1 : i.toNat.testBit 1 = decide (i.toNat / 2 % 2 = 1) := by rw [Nat.testBit_succ, Nat.testBit_zero]
  unfold pick selectHighBit
  rw [h0, h1, e0, e1]
  have hf : ∀ r : Nat, r < 4 → i.toNat % 4 = r → (Fin.ofNat 4 i.toNat : Fin 4) = Fin.ofNat 4 r := by
    intro r hr h; apply Fin.ext; simp [h, Nat.mod_eq_of_lt hr]
  have hr : i.toNat % 4 < 4 := Nat.mod_lt _ (by norm_num)
  obtain ⟨r, hr', e⟩ : ∃ r, r < 4 ∧ i.toNat % 4 = r := ⟨_, hr, rfl⟩
  rw [hf r hr' e]
  have a1 : i.toNat % 2 = r % 2 := by omega
  have a2 : i.toNat / 2 % 2 = r / 2 := by omega
  rw [a1, a2]
  interval_cases r <;> simp <;> rfl

theorem pickRow_eq (i : I32) (M : Matrix (Fin 4) (Fin 4) ℝ) : pickRow i (colsOf M) = M (Fin.ofNat 4 i.toNat) := by
  unfold pickRow colsOf
  funext c
  fin_cases c <;> exact pick_eq i fun r => M r _

theorem lastRow_eq (i : I32) (M : Matrix (Fin 4) (Fin 4) ℝ) : lastRow i (colsOf M) = M (2 - Fin.ofNat 4 i.toNat) := by
  have e : ∀ f : Fin 4 → ℝ, pick i (f 2) (f 1) (f 0) (f 3) = f (2 - Fin.ofNat 4 i.toNat) := by
    intro f
    have := pick_eq i fun r => f (2 - r)
    exact this
  unfold lastRow colsOf
  funext c
  fin_cases c <;> exact e fun r => M r _

theorem basis_toNat (h : I32) (hm : h.msb = false) : ((h >>> 2) * 5).toNat = h.toNat / 4 * 5 := by
  have : h.toNat < 2 ^ 31 := by
    have := BitVec.msb_eq_false_iff_two_mul_lt.mp hm
    omega
  rw [BitVec.toNat_mul, BitVec.toNat_ushiftRight, Nat.shiftRight_eq_div_pow]
  have h5 : (5 : I32).toNat = 5 := by decide
  rw [h5]
  omega

theorem valueIndices_eq (h : I32) (hm : h.msb = false) :
    let i := valueIndices h
    ![Fin.ofNat 4 i.1.toNat, Fin.ofNat 4 i.2.1.toNat, Fin.ofNat 4 i.2.2.toNat, 2 - Fin.ofNat 4 (i.1 + i.2.1 + i.2.2).toNat] = axisRow h := by
  have hb := basis_toNat h hm
  obtain ⟨B, hB⟩ : ∃ B : I32, B = (h >>> 2) * 5 := ⟨_, rfl⟩
  obtain ⟨P, hP⟩ : ∃ P : I32, P = ((h >>> 2) * 0xD5555556#32).sshiftRight 29 := ⟨_, rfl⟩
  rw [← hB] at hb
  have hq : (h >>> 2).toNat = h.toNat / 4 := by rw [BitVec.toNat_ushiftRight, Nat.shiftRight_eq_div_pow]
  have hPn : ((h >>> 2) * 0xD5555556#32).toNat = h.toNat / 4 * 0xD5555556 % 2 ^ 32 := by
    rw [BitVec.toNat_mul, hq]; rfl
  -- the signed three bit number
  have hPint : P.toInt = if 4 ≤ h.toNat / 4 * 0xD5555556 % 2 ^ 32 / 2 ^ 29 then ((h.toNat / 4 * 0xD5555556 % 2 ^ 32 / 2 ^ 29 : Nat) : ℤ) - 8 else ((h.toNat / 4 * 0xD5555556 % 2 ^ 32 / 2 ^ 29 : Nat) : ℤ) := by
    rw [hP, BitVec.toInt_sshiftRight, Int.shiftRight_eq_div_pow, BitVec.toInt_eq_toNat_cond, hPn]
    have : h.toNat / 4 * 0xD5555556 % 2 ^ 32 < 2 ^ 32 := Nat.mod_lt _ (by norm_num)
    revert this
    generalize h.toNat / 4 * 0xD5555556 % 2 ^ 32 = u
    intro this
    split_ifs <;> omega
  have hPmod : P.toNat % 4 = h.toNat / 4 * 0xD5555556 % 2 ^ 32 / 2 ^ 29 % 4 := by
    have := sshr_mod ((h >>> 2) * 0xD5555556#32) 29 2 (by norm_num)
    rw [← hP, hPn] at this
    exact this
  have h8 : (B.sshiftRight 24).toNat % 8 = h.toNat / 4 * 5 / 2 ^ 24 % 8 := by
    have := sshr_mod B 24 3 (by norm_num)
    rw [hb] at this
    exact this
  have hX : ((B.sshiftRight 24).sshiftRight 1).toNat % 4 = h.toNat / 4 * 5 / 2 ^ 24 % 8 / 2 := by
    have := sshr_mod (B.sshiftRight 24) 1 2 (by norm_num)
    generalize (B.sshiftRight 24).toNat = b24 at *
    generalize ((B.sshiftRight 24).sshiftRight 1).toNat = x at *
    generalize h.toNat / 4 * 5 / 2 ^ 24 = a at *
    omega
  have hZ : (B.sshiftRight 24 &&& 1).toNat = h.toNat / 4 * 5 / 2 ^ 24 % 8 % 2 := by
    rw [BitVec.toNat_and]
    have h1 : (1 : I32).toNat = 2 ^ 1 - 1 := by decide
    rw [h1, Nat.and_two_pow_sub_one_eq_mod]
    omega
  have hZint : (B.sshiftRight 24 &&& 1).toInt = ((h.toNat / 4 * 5 / 2 ^ 24 % 8 % 2 : Nat) : ℤ) := by
    rw [BitVec.toInt_eq_toNat_cond, hZ, if_pos (by omega)]
  have hone : (1 : I32).toNat = 1 := by decide
  simp only [valueIndices, axisRow, ← hB, ← hP, BitVec.sle, hPint, hZint]
  have ht : h.toNat / 4 * 0xD5555556 % 2 ^ 32 / 2 ^ 29 < 8 := by
    have : h.toNat / 4 * 0xD5555556 % 2 ^ 32 < 2 ^ 32 := Nat.mod_lt _ (by norm_num)
    omega
  generalize h.toNat / 4 * 0xD5555556 % 2 ^ 32 / 2 ^ 29 = t at *
  generalize h.toNat / 4 * 5 / 2 ^ 24 % 8 = a at *
  generalize (B.sshiftRight 24).sshiftRight 1 = X at *
  generalize (B.sshiftRight 24 &&& 1) = Z at *
  have hcond : (decide ((if 4 ≤ t then ((t : ℤ)) - 8 else t) ≤ ((a % 2 : Nat) : ℤ)) = true) ↔ (t ≤ a % 2 ∨ 4 ≤ t) := by
    rw [decide_eq_true_eq]
    split_ifs <;> omega
  have fe : ∀ m n : Nat, m % 4 = n % 4 → (Fin.ofNat 4 m : Fin 4) = Fin.ofNat 4 n := by
    intro m n h; apply Fin.ext; simpa using h
  have hc : (if decide ((if 4 ≤ t then ((t : ℤ)) - 8 else t) ≤ ((a % 2 : Nat) : ℤ)) = true then Z + 1 else Z).toNat % 4 = (a % 2 + if t ≤ a % 2 ∨ 4 ≤ t then 1 else 0) % 4 := by
    by_cases hh : t ≤ a % 2 ∨ 4 ≤ t
    · rw [if_pos (hcond.mpr hh), if_pos hh, BitVec.toNat_add, hZ, hone]; omega
    · rw [if_neg (fun h => hh (hcond.mp h)), if_neg hh, hZ]; rfl
  generalize (if decide ((if 4 ≤ t then ((t : ℤ)) - 8 else t) ≤ ((a % 2 : Nat) : ℤ)) = true then Z + 1 else Z) = W at *
  generalize (a % 2 + if t ≤ a % 2 ∨ 4 ≤ t then 1 else 0) = w at *
  have hadd : ∀ u v : I32, (u + v).toNat % 4 = (u.toNat % 4 + v.toNat % 4) % 4 := by
    intro u v; rw [BitVec.toNat_add]; omega
  have h1 : (X.toNat) % 4 = a / 2 % 4 := by omega
  have h2 : (X + 1 + P).toNat % 4 = (a / 2 + 1 + t) % 4 := by rw [hadd, hadd, hone]; omega
  have h3 : (X + 1 + W).toNat % 4 = (a / 2 + 1 + w) % 4 := by rw [hadd, hadd, hone]; omega
  have h4 : (X + (X + 1 + P) + (X + 1 + W)).toNat % 4 = (a / 2 + (a / 2 + 1 + t) + (a / 2 + 1 + w)) % 4 := by rw [hadd, hadd, h2, h3]; omega
  have fa : ∀ m n : Nat, (Fin.ofNat 4 m : Fin 4) + Fin.ofNat 4 n = Fin.ofNat 4 (m + n) := by
    intro m n; apply Fin.ext; simp [Fin.val_add]
  rw [fe _ _ h1, fe _ _ h2, fe _ _ h3, fe _ _ h4, fa, fa]

theorem top_basis (h : I32) (hm : h.msb = false) : ((h >>> 2) * 5).toNat / 2 ^ 27 = (firstOf20 h : Nat) := by
  have := BitVec.msb_eq_false_iff_two_mul_lt.mp hm
  rw [basis_toNat h hm, firstOf20]
  show _ = _ % 20
  omega

theorem cols4_eq (ft : Feat) (h : I32) (hm : h.msb = false) : cols4 ft h = colsOf (basisOf ft (firstOf20 h)) := by
  have hk : (firstOf20 h : Nat) < 32 := lt_trans (firstOf20 h).2 (by norm_num)
  have ht := top_basis h hm
  unfold cols4 basisOf
  split_ifs
  · rw [cols512_top hk ht, cols512_eq]
  · rw [cols256_top hk ht, cols256_eq]
  · rw [colsGen_top hk ht, colsGen_eq]

theorem orthMatrix4_eq (ft : Feat) (h : I32) (hm : h.msb = false) : orthMatrix4 ft h = gridMatrix4 (basisOf ft) h := by
  have hv := valueIndices_eq h hm
  unfold orthMatrix4 gridMatrix4
  simp only [cols4_eq ft h hm] at hv ⊢
  rw [← hv]
  have hs : sg (h <<< 31).msb = (if h.toNat % 2 = 1 then -1 else 1 : ℝ) := by
    rw [msb_shl h 31 (by norm_num), Nat.testBit_zero]
    by_cases e : h.toNat % 2 = 1 <;> simp [sg, e]
  rw [hs, pickRow_eq, pickRow_eq, pickRow_eq, lastRow_eq]
  ext i j
  fin_cases i <;> rfl

theorem matrices4_eq (ft : Feat) (s : Scheme) (h : I32) (hm : h.msb = false) : matrices4 ft s h = gridMatrixOf4 ft s h := by
  cases s
  · exact orthMatrix4_eq ft h hm
  · rfl

end
end FastNoise.WarpGrad
