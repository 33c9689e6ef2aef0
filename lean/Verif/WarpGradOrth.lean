import Verif.WarpGradLemmas
/-! # Lemmas on the vector contributions: the orthogonal gradient matrices in 2 and 3 dimensions -/
namespace FastNoise.WarpGrad
open FastNoise.Hash FastNoise.Gradient Matrix

noncomputable section

/-! ## 2D -/

/-- The twelve gradients of the 2D matrix. -/
def grad2 (i : Fin 12) : ℝ × ℝ :=
  ![(skew2, skew2 + 1), (-skew2, skew2 + 1), (skew2, -skew2 - 1), (-skew2, -skew2 - 1), (skew2 + 1, skew2), (-skew2 - 1, skew2), (skew2 + 1, -skew2), (-skew2 - 1, -skew2),
    (1, 1), (-1, 1), (1, -1), (-1, -1)] i

theorem skew2_sq : skew2 * (skew2 + 1) = 1 / 2 := by
  have h : √3 * √3 = 3 := Real.mul_self_sqrt (by norm_num)
  have hp : 0 < √3 := Real.sqrt_pos.mpr (by norm_num)
  have : √3 + 1 ≠ 0 := by positivity
  unfold skew2
  field_simp
  nlinarith

theorem grad2_len (i : Fin 12) : (grad2 i).1 ^ 2 + (grad2 i).2 ^ 2 = 2 := by
  have := skew2_sq
  fin_cases i <;> simp [grad2] <;> nlinarith

theorem orth2_aux (ft : Feat) (h d : I32) (hd : (h >>> 1) * 3 = d) (x y m : ℝ) (v : ℝ × ℝ) (r : Nat) (hr : r < 12) (e : d.toNat / 2 ^ 28 = r) :
    orth2 ft h x y m v = (v.1 + m * ((grad2 ⟨r, hr⟩).1 * x + (grad2 ⟨r, hr⟩).2 * y),
      v.2 + m * sg (h <<< 31).msb * ((grad2 ⟨r, hr⟩).1 * y - (grad2 ⟨r, hr⟩).2 * x)) := by
  unfold orth2
  simp only [hd]
  have bl : BitVec.sle 0 d = decide (r < 8) := by
    refine (BitVec.zero_sle_eq_not_msb (x := d)).trans ?_
    rw [msb_eq, ← decide_not]; exact decide_eq_decide.mpr (by simp only [Nat.reducePow] at *; omega)
  have b28 : (d.sshiftRight 28 <<< 31).msb = decide (r % 2 = 1) := by rw [msb_sar_shl _ _ (by omega), e]
  have b29 : (d.sshiftRight 29 <<< 31).msb = decide (r / 2 % 2 = 1) := by rw [msb_sar_shl _ _ (by omega)]; exact decide_eq_decide.mpr (by simp only [Nat.reducePow] at *; omega)
  have n28 : (d >>> 28).toNat % 16 = r := by rw [shr_toNat, e]; omega
  have n29 : (d >>> 29).toNat % 8 = r / 2 := by rw [shr_toNat]; omega
  have n30 : d >>> 30 = BitVec.ofNat 32 (r / 4) := by apply BitVec.eq_of_toNat_eq; rw [shr_toNat, BitVec.toNat_ofNat]; omega
  simp only [perm16, perm8, n28, n29, n30, xorSign_eq, bl, b28, b29, masked, maskedIncrement, fma, fms]
  clear hd e bl b28 b29 n28 n29 n30
  generalize sg (h <<< 31).msb = s
  rcases ft with ⟨x8, _, av, a2, a5⟩
  cases a5 <;> cases a2 <;> interval_cases r <;> simp [grad2, sg] <;> constructor <;> ring

theorem orth2_eq (ft : Feat) (h : I32) (hm : h.msb = false) (x y m : ℝ) (v : ℝ × ℝ) :
    orth2 ft h x y m v = (v.1 + m * ((grad2 (firstOf12 h)).1 * x + (grad2 (firstOf12 h)).2 * y),
      v.2 + m * sg (h <<< 31).msb * ((grad2 (firstOf12 h)).1 * y - (grad2 (firstOf12 h)).2 * x)) :=
  orth2_aux ft h _ rfl x y m v _ _ (first12 h hm)

/-- The matrix of a grid point in 2D. -/
def orthMatrix2 (h : I32) : Matrix (Fin 2) (Fin 2) ℝ :=
  let g := grad2 (firstOf12 h)
  let s := sg (h <<< 31).msb
  !![g.1, g.2; -(s * g.2), s * g.1]

theorem orthMatrix2_spec : orthMatrix2 = turnMatrix2 := by
  funext h
  have e : sg (h <<< 31).msb = if h.toNat % 2 = 1 then -1 else 1 := by
    rw [msb_shl _ _ (by omega), sg]
    have := h.isLt
    simp only [decide_eq_true_eq, Nat.reducePow, Nat.reduceSub]
    refine if_congr ?_ rfl rfl
    omega
  unfold orthMatrix2 turnMatrix2
  rw [e]; rfl

theorem orthMatrix2_orth (h : I32) : orthMatrix2 h * (orthMatrix2 h)ᵀ = (2 : ℝ) • 1 := by
  have l := grad2_len (firstOf12 h)
  have s1 : sg (h <<< 31).msb * sg (h <<< 31).msb = 1 := by cases (h <<< 31).msb <;> simp [sg]
  unfold orthMatrix2
  generalize sg (h <<< 31).msb = s at *
  ext i j
  fin_cases i <;> fin_cases j <;> simp [Matrix.mul_apply, Fin.sum_univ_two]
  · linarith
  · ring
  · ring
  · linear_combination ((grad2 (firstOf12 h)).1 ^ 2 + (grad2 (firstOf12 h)).2 ^ 2) * s1 + l

/-! ## 3D -/

/-- The rows of the 3D matrices. -/
def rowA (i : Nat) : Fin 3 → ℝ := ![(tableA_gX ++ tableB_gX).getD i 0, (tableA_gY ++ tableB_gY).getD i 0, (tableA_gZ ++ tableB_gZ).getD i 0]
@[inherit_doc rowA] def rowB (i : Nat) : Fin 3 → ℝ := ![(tableB_gX ++ tableA_gX).getD i 0, (tableB_gY ++ tableA_gY).getD i 0, (tableB_gZ ++ tableA_gZ).getD i 0]
@[inherit_doc rowA] def rowC (i : Nat) : Fin 3 → ℝ := ![tableC_gX.getD (i % 16) 0, tableC_gY.getD (i % 16) 0, tableC_gZ.getD (i % 16) 0]

theorem kAB : kA * kB = -1 / 2 ∧ kA + kB = 2 := by
  have h : √6 * √6 = 6 := Real.mul_self_sqrt (by norm_num)
  unfold kA kB
  constructor
  · nlinarith
  · ring

theorem rows_orth (t l : Nat) (ht : t < 3) (hl : l < 8) :
    rowA (t + 4 * l) ⬝ᵥ rowA (t + 4 * l) = 6 ∧ rowB (t + 4 * l) ⬝ᵥ rowB (t + 4 * l) = 6 ∧ rowC (t + 4 * l) ⬝ᵥ rowC (t + 4 * l) = 6 ∧
    rowA (t + 4 * l) ⬝ᵥ rowB (t + 4 * l) = 0 ∧ rowA (t + 4 * l) ⬝ᵥ rowC (t + 4 * l) = 0 ∧ rowB (t + 4 * l) ⬝ᵥ rowC (t + 4 * l) = 0 := by
  obtain ⟨h1, h2⟩ := kAB
  have h3 : kA ^ 2 + kB ^ 2 = 5 := by nlinarith
  interval_cases t <;> interval_cases l <;>
    simp [rowA, rowB, rowC, tableA_gX, tableA_gY, tableA_gZ, tableB_gX, tableB_gY, tableB_gZ, tableC_gX, tableC_gY, tableC_gZ, dotProduct, Fin.sum_univ_three, kC, kDE, kF] <;>
    refine ⟨?_, ?_, ?_, ?_, ?_, ?_⟩ <;> linarith

theorem rot2 (P : I32) : (P.rotateLeft 2).toNat % 32 = P.toNat / 2 ^ 30 + 4 * (P.toNat % 8) := by
  have e : (P.rotateLeft 2).toNat = (P.toNat % 2 ^ 30) * 4 + P.toNat / 2 ^ 30 := by
    rw [BitVec.toNat_rotateLeft]
    have : P.toNat <<< (2 % 32) % 2 ^ 32 = (P.toNat % 2 ^ 30) <<< 2 := by
      simp only [Nat.shiftLeft_eq, Nat.reducePow, Nat.reduceMod]; omega
    rw [this, show 32 - 2 % 32 = 30 from rfl, Nat.shiftRight_eq_div_pow, ← Nat.shiftLeft_add_eq_or_of_lt (by have := P.isLt; omega), Nat.shiftLeft_eq]
  rw [e]
  have := P.isLt
  omega

theorem facet_index (h : I32) (hm : h.msb = false) : ((h >>> 1) * 0xAAAAAAAB#32).toNat / 2 ^ 30 = 2 * (h.toNat / 2) % 3 ∧ ((h >>> 1) * 0xAAAAAAAB#32).toNat % 8 = 3 * (h.toNat / 2) % 8 := by
  have h31 := lt31 hm
  rw [BitVec.toNat_mul, shr_toNat]
  have e : BitVec.toNat (0xAAAAAAAB#32) = 2863311531 := by decide
  rw [e]
  have f : h.toNat / 2 ^ 1 = h.toNat / 2 := by norm_num
  rw [f]
  have hs : h.toNat / 2 < 1073741824 := by omega
  revert hs
  generalize h.toNat / 2 = s
  intro hs
  constructor
  · obtain ⟨q, r, hr, rfl⟩ : ∃ q r, r < 3 ∧ s = 3 * q + r := ⟨s / 3, s % 3, Nat.mod_lt _ (by decide), by omega⟩
    rw [show (3 * q + r) * 2863311531 = q + r * 2863311531 + q * 2 * 2 ^ 32 by ring, Nat.add_mul_mod_self_right]
    interval_cases r <;> omega
  · omega

/-- The matrix in 3D, from the facet `t`, the basis `l` on it, the order `p` of the rows and the sign. -/
def matrix3 (t l p : Nat) (s : ℝ) : Matrix (Fin 3) (Fin 3) ℝ :=
  let i := t + 4 * l
  s • of (if p = 0 then ![rowC i, rowA i, rowB i] else if p = 1 then ![rowA i, rowC i, rowB i] else ![rowA i, rowB i, rowC i])

theorem matrix3_orth (t l p : Nat) (ht : t < 3) (hl : l < 8) (s : ℝ) (hs : s * s = 1) : matrix3 t l p s * (matrix3 t l p s)ᵀ = (6 : ℝ) • 1 := by
  obtain ⟨aa, bb, cc, ab, ac, bc⟩ := rows_orth t l ht hl
  have ba := (dotProduct_comm _ _).trans ab
  have ca := (dotProduct_comm _ _).trans ac
  have cb := (dotProduct_comm _ _).trans bc
  simp only [matrix3, transpose_smul, smul_mul_smul_comm, hs, one_smul]
  ext i j
  have hm : ∀ R : Fin 3 → Fin 3 → ℝ, (of R * (of R)ᵀ) i j = R i ⬝ᵥ R j := fun R => rfl
  rw [hm]
  split_ifs <;> fin_cases i <;> fin_cases j <;> simp [aa, bb, cc, ab, ac, bc, ba, ca, cb]

theorem orth3_aux (ft : Feat) (h P : I32) (hP : (h >>> 1) * 0xAAAAAAAB#32 = P) (x y z m : ℝ) (v : ℝ × ℝ × ℝ) (t l p : Nat) (ht : t < 3) (hl : l < 8) (hp : p < 3)
    (e1 : P.toNat / 2 ^ 30 = t) (e2 : P.toNat % 8 = l) (e3 : ((h >>> 1) * 3) >>> 30 = BitVec.ofNat 32 p) :
    orth3 ft h x y z m v = (v.1 + m * (matrix3 t l p (sg (h <<< 31).msb) *ᵥ ![x, y, z]) 0, v.2.1 + m * (matrix3 t l p (sg (h <<< 31).msb) *ᵥ ![x, y, z]) 1,
      v.2.2 + m * (matrix3 t l p (sg (h <<< 31).msb) *ᵥ ![x, y, z]) 2) := by
  unfold orth3
  simp only [hP, e3]
  have b31 : P.msb = decide (t = 2) := by rw [msb_eq]; exact decide_eq_decide.mpr (by simp only [Nat.reducePow] at *; omega)
  have b30 : (P <<< 1).msb = decide (t = 1) := by rw [msb_shl _ _ (by omega)]; exact decide_eq_decide.mpr (by simp only [Nat.reducePow, Nat.reduceSub] at *; omega)
  have bo : (P ||| P <<< 1).msb = decide (t ≠ 0) := by rw [BitVec.msb_or, b31, b30, ← Bool.decide_or]; exact decide_eq_decide.mpr (by omega)
  have b0 : (P <<< 31).msb = decide (l % 2 = 1) := by rw [msb_shl _ _ (by omega)]; exact decide_eq_decide.mpr (by simp only [Nat.reducePow, Nat.reduceSub] at *; omega)
  have b1 : (P <<< 30 &&& 1 <<< 31).msb = decide (l / 2 % 2 = 1) := by
    rw [BitVec.msb_and, msb_shl _ _ (by omega), show (1 <<< 31 : I32).msb = true from by decide, Bool.and_true]; exact decide_eq_decide.mpr (by simp only [Nat.reducePow, Nat.reduceSub] at *; omega)
  have b2 : (P <<< 29).msb = decide (l / 4 % 2 = 1) := by rw [msb_shl _ _ (by omega)]; exact decide_eq_decide.mpr (by simp only [Nat.reducePow, Nat.reduceSub] at *; omega)
  have r5 : (P.rotateLeft 2).toNat % 32 = t + 4 * l := by rw [rot2, e1, e2]
  have r4 : (P.rotateLeft 2).toNat % 16 = (t + 4 * l) % 16 := by omega
  have q0 : (BitVec.ofNat 32 p == 0) = decide (p = 0) := by interval_cases p <;> decide
  have q1 : (BitVec.ofNat 32 p == 1) = decide (p = 1) := by interval_cases p <;> decide
  have q2 : (BitVec.ofNat 32 p == 2) = decide (p = 2) := by interval_cases p <;> decide
  simp only [q0, q1, q2, xorSign_eq, selectHighBit, b31, b30, bo, b0, b1, b2, perm32, perm16, r5, r4, fma, select]
  generalize sg (h <<< 31).msb = s
  have key : ∀ A B C : ℝ, A = rowA (t + 4 * l) ⬝ᵥ ![x, y, z] → B = rowB (t + 4 * l) ⬝ᵥ ![x, y, z] → C = rowC (t + 4 * l) ⬝ᵥ ![x, y, z] →
      (s * m * (if decide (p = 0) = true then C else A) + v.1, s * m * (if decide (p = 1) = true then C else if decide (p = 2) = true then B else A) + v.2.1,
        s * m * (if decide (p = 2) = true then C else B) + v.2.2) =
      (v.1 + m * (matrix3 t l p s *ᵥ ![x, y, z]) 0, v.2.1 + m * (matrix3 t l p s *ᵥ ![x, y, z]) 1, v.2.2 + m * (matrix3 t l p s *ᵥ ![x, y, z]) 2) := by
    intro A B C hA hB hC
    have hmv : ∀ (R : Fin 3 → Fin 3 → ℝ) (k : Fin 3), ((s • of R) *ᵥ ![x, y, z]) k = s * (R k ⬝ᵥ ![x, y, z]) := by
      intro R k; rw [smul_mulVec]; rfl
    simp only [matrix3, hmv]
    generalize ![x, y, z] = f at *
    interval_cases p <;> simp only [hA, hB, hC, Nat.reduceEqDiff, if_true, if_false, decide_true, decide_false, Bool.false_eq_true, one_ne_zero, OfNat.ofNat_ne_zero, OfNat.ofNat_ne_one,
      cons_val_zero, cons_val_one, cons_val] <;> refine Prod.ext ?_ (Prod.ext ?_ ?_) <;> ring
  clear hP e1 e2 e3 b31 b30 bo b0 b1 b2 r5 r4 q0 q1 q2
  rcases ft with ⟨x8, _, av, a2, a5⟩
  cases a5
  · refine key _ _ _ ?_ ?_ ?_ <;> clear key <;> interval_cases t <;> interval_cases l <;>
      simp [rowA, rowB, rowC, tableA_gX, tableA_gY, tableA_gZ, tableB_gX, tableB_gY, tableB_gZ, tableC_gX, tableC_gY, tableC_gZ, dotProduct, Fin.sum_univ_three, kC, kDE, kF, sg] <;> ring
  · refine key _ _ _ ?_ ?_ ?_ <;> simp only [if_true, rowA, rowB, rowC, dotProduct, Fin.sum_univ_three, cons_val_zero, cons_val_one, cons_val] <;> ring

/-- The matrix of a grid point in 3D. -/
def orthMatrix3 (h : I32) : Matrix (Fin 3) (Fin 3) ℝ :=
  matrix3 (2 * (h.toNat / 2) % 3) (3 * (h.toNat / 2) % 8) (firstOf12 h / 4) (sg (h <<< 31).msb)

theorem orthMatrix3_spec : orthMatrix3 = turnMatrix3 := by
  funext h
  have e : sg (h <<< 31).msb = if h.toNat % 2 = 1 then -1 else 1 := by
    rw [msb_shl _ _ (by omega), sg]
    have := h.isLt
    simp only [decide_eq_true_eq, Nat.reducePow, Nat.reduceSub]
    refine if_congr ?_ rfl rfl
    omega
  unfold orthMatrix3 turnMatrix3
  rw [e]
  have b0 : 3 * (h.toNat / 2) % 2 = 3 * (h.toNat / 2) % 8 % 2 := by omega
  have b1 : 3 * (h.toNat / 2) / 2 % 2 = 3 * (h.toNat / 2) % 8 / 2 % 2 := by omega
  have b2 : 3 * (h.toNat / 2) / 4 % 2 = 3 * (h.toNat / 2) % 8 / 4 % 2 := by
    rw [← Nat.mod_mul_right_div_self (3 * (h.toNat / 2)) 4 2, Nat.mod_eq_of_lt (a := 3 * (h.toNat / 2) % 8 / 4) (by omega)]
  simp only [b0, b1, b2]
  have hl : 3 * (h.toNat / 2) % 8 < 8 := Nat.mod_lt _ (by norm_num)
  have ht : 2 * (h.toNat / 2) % 3 < 3 := Nat.mod_lt _ (by norm_num)
  have rows : ∀ t l : Nat, t < 3 → l < 8 →
      rowA (t + 4 * l) = (if l / 4 % 2 = 1 then facetRow t (if l % 2 = 1 then -1 else 1) (if l / 2 % 2 = 1 then -1 else 1) (1 - √6 / 2) (1 + √6 / 2) (-1)
        else facetRow t (if l % 2 = 1 then -1 else 1) (if l / 2 % 2 = 1 then -1 else 1) (1 + √6 / 2) (1 - √6 / 2) (-1)) ∧
      rowB (t + 4 * l) = (if l / 4 % 2 = 1 then facetRow t (if l % 2 = 1 then -1 else 1) (if l / 2 % 2 = 1 then -1 else 1) (1 + √6 / 2) (1 - √6 / 2) (-1)
        else facetRow t (if l % 2 = 1 then -1 else 1) (if l / 2 % 2 = 1 then -1 else 1) (1 - √6 / 2) (1 + √6 / 2) (-1)) ∧
      rowC (t + 4 * l) = facetRow t (if l % 2 = 1 then -1 else 1) (if l / 2 % 2 = 1 then -1 else 1) 1 1 2 := by
    intro t l ht hl
    interval_cases t <;> interval_cases l <;>
      simp [rowA, rowB, rowC, tableA_gX, tableA_gY, tableA_gZ, tableB_gX, tableB_gY, tableB_gZ, tableC_gX, tableC_gY, tableC_gZ, facetRow, kA, kB, kC, kDE, kF]
  obtain ⟨rA, rB, rC⟩ := rows _ _ ht hl
  unfold matrix3
  simp only [rA, rB, rC]

theorem orthMatrix3_orth (h : I32) : orthMatrix3 h * (orthMatrix3 h)ᵀ = (6 : ℝ) • 1 :=
  matrix3_orth _ _ _ (by omega) (by omega) _ (by cases (h <<< 31).msb <;> simp [sg])

theorem orth3_eq (ft : Feat) (h : I32) (hm : h.msb = false) (x y z m : ℝ) (v : ℝ × ℝ × ℝ) :
    orth3 ft h x y z m v = (v.1 + m * (orthMatrix3 h *ᵥ ![x, y, z]) 0, v.2.1 + m * (orthMatrix3 h *ᵥ ![x, y, z]) 1, v.2.2 + m * (orthMatrix3 h *ᵥ ![x, y, z]) 2) := by
  have f := first12 h hm
  have := (firstOf12 h).isLt
  refine orth3_aux ft h _ rfl x y z m v _ _ _ (by omega) (by omega) (by omega) (facet_index h hm).1 (facet_index h hm).2 ?_
  apply BitVec.eq_of_toNat_eq
  rw [shr_toNat, BitVec.toNat_ofNat]
  omega

end
end FastNoise.WarpGrad
