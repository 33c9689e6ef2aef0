import Verif.WarpGrad
import Verif.WarpGradSpec
import Verif.GradientLemmas
/-! # Lemmas on the vector contributions -/
namespace FastNoise.WarpGrad
open FastNoise.Hash FastNoise.Gradient Matrix

theorem lt31 {h : I32} (hm : h.msb = false) : h.toNat < 2 ^ 31 := by
  rw [msb_eq] at hm
  have := h.isLt
  simp at hm
  omega

/-- The mask keeps the two upper and the two lower bits. -/
theorem and_ends (x : I32) : x &&& 0xC0000003#32 = BitVec.ofNat 32 (x.toNat / 2 ^ 30 * 2 ^ 30 + x.toNat % 4) := by
  have e : x.toNat / 2 ^ 30 * 2 ^ 30 + x.toNat % 4 = x.toNat / 2 ^ 30 * 2 ^ 30 ||| x.toNat % 4 := by
    rw [← Nat.shiftLeft_eq]; exact (Nat.shiftLeft_add_eq_or_of_lt (by omega) _)
  rw [e]
  apply BitVec.eq_of_getLsbD_eq
  intro i hi
  have key : ∀ j : Fin 32, (0xC0000003#32).getLsbD j = (decide (30 ≤ (j : Nat)) || decide ((j : Nat) < 2)) := by decide
  rw [BitVec.getLsbD_and, key ⟨i, hi⟩, BitVec.getLsbD_ofNat, Nat.testBit_or, ← Nat.shiftLeft_eq, Nat.testBit_shiftLeft, ← Nat.shiftRight_eq_div_pow, Nat.testBit_shiftRight,
    show (4 : Nat) = 2 ^ 2 from rfl, Nat.testBit_mod_two_pow, BitVec.testBit_toNat, BitVec.testBit_toNat]
  by_cases h1 : 30 ≤ i
  · simp [hi, h1, show ¬ i < 2 by omega, show 30 + (i - 30) = i by omega]
  · by_cases h2 : i < 2 <;> simp [hi, h1, h2]

theorem outer_index (h : I32) (hm : h.msb = false) :
    ((h >>> 1) * 0xAAAAAAAB#32) &&& 0xC0000003#32 = BitVec.ofNat 32 (2 * (h.toNat / 2) % 3 * 2 ^ 30 + 3 * (h.toNat / 2) % 4) := by
  have h31 := lt31 hm
  rw [and_ends, BitVec.toNat_mul, shr_toNat]
  have e : BitVec.toNat (0xAAAAAAAB#32) = 2863311531 := by decide
  rw [e]
  have f : h.toNat / 2 ^ 1 = h.toNat / 2 := by norm_num
  rw [f]
  have hs : h.toNat / 2 < 1073741824 := by omega
  revert hs
  generalize h.toNat / 2 = s
  intro hs
  have e1 : s * 2863311531 % 2 ^ 32 / 2 ^ 30 = 2 * s % 3 := by
    obtain ⟨q, r, hr, rfl⟩ : ∃ q r, r < 3 ∧ s = 3 * q + r := ⟨s / 3, s % 3, Nat.mod_lt _ (by decide), by omega⟩
    rw [show (3 * q + r) * 2863311531 = q + r * 2863311531 + q * 2 * 2 ^ 32 by ring, Nat.add_mul_mod_self_right]
    interval_cases r <;> omega
  have e2 : s * 2863311531 % 2 ^ 32 % 4 = 3 * s % 4 := by omega
  rw [e1, e2]

/-- A sign as a factor. -/
noncomputable def sg (b : Bool) : ℝ := if b then -1 else 1

theorem xorSign_eq (x : ℝ) (s : I32) : xorSign x s = sg s.msb * x := by unfold xorSign sg; split <;> ring

theorem sg_xor (a b : Bool) : sg (a ^^ b) = sg a * sg b := by cases a <;> cases b <;> simp [sg]

theorem outer2_512 (r : Nat) (hr : r < 12) (i : I32) (e : i.toNat % 16 = r) : perm16 i outer2X = (simplex2 ⟨r, hr⟩).1 ∧ perm16 i outer2Y = (simplex2 ⟨r, hr⟩).2 := by
  unfold perm16; rw [e]; clear e
  interval_cases r <;> simp [simplex2, outer2X, outer2Y, root3]

theorem outer2_8 (r : Nat) (hr : r < 12) (i : I32) (e : i.toNat % 8 = r / 2) :
    perm8 i outer2X8 = sg (decide (r % 2 = 1)) * (simplex2 ⟨r, hr⟩).1 ∧ perm8 i outer2Y8 = sg (decide (r % 2 = 1)) * (simplex2 ⟨r, hr⟩).2 := by
  unfold perm8; rw [e]; clear e
  interval_cases r <;> simp [simplex2, outer2X8, outer2Y8, root3, sg]

theorem outer2_aux (ft : Feat) (h d o : I32) (hd : (h >>> 1) * 3 = d) (ho : ((h >>> 1) * 0xAAAAAAAB#32) &&& 0xC0000003#32 = o) (x y m : ℝ) (v : ℝ × ℝ) (r : Nat) (hr : r < 12)
    (e : d.toNat / 2 ^ 28 = r) (a b : Nat) (ha : a < 3) (hb : b < 4) (eo : o = BitVec.ofNat 32 (a * 2 ^ 30 + b)) :
    outer2 ft h x y m v = (v.1 + m * dot2 (simplex2 ⟨r, hr⟩) x y * (simplex2 ⟨4 * a + b, by omega⟩).1, v.2 + m * dot2 (simplex2 ⟨r, hr⟩) x y * (simplex2 ⟨4 * a + b, by omega⟩).2) := by
  unfold outer2
  simp only [hd, ho]
  have b31 : d.msb = decide (r / 8 % 2 = 1) := by rw [msb_eq]; exact decide_eq_decide.mpr (by simp only [Nat.reducePow] at *; omega)
  have b29 : (d <<< 2).msb = decide (r / 2 % 2 = 1) := by rw [msb_shl _ _ (by omega)]; exact decide_eq_decide.mpr (by simp only [Nat.reducePow, Nat.reduceSub] at *; omega)
  have b30 : (d.sshiftRight 30 <<< 31).msb = decide (r / 4 % 2 = 1) := by rw [msb_sar_shl _ _ (by omega)]; exact decide_eq_decide.mpr (by simp only [Nat.reducePow] at *; omega)
  have b28 : (d.sshiftRight 28 <<< 31).msb = decide (r % 2 = 1) := by rw [msb_sar_shl _ _ (by omega), e]
  have bl : BitVec.sle 0 d = !d.msb := BitVec.zero_sle_eq_not_msb
  have e28 : (d.sshiftRight 28).toNat % 16 = r := (sar_mod d 28 4 rfl).trans e
  have e29 : (d.sshiftRight 29).toNat % 8 = r / 2 := by rw [show (8 : Nat) = 2 ^ 3 from rfl, sar_mod d 29 3 rfl]; omega
  have bx : ((d.sshiftRight 28 ^^^ o) <<< 31).msb = (decide (r % 2 = 1) ^^ (o <<< 31).msb) := by rw [← b28, BitVec.shiftLeft_xor_distrib, BitVec.msb_xor]
  have c31 : o.msb = decide (a = 2) := by subst eo; interval_cases a <;> interval_cases b <;> decide
  have c1 : (o <<< 30).msb = decide (b / 2 % 2 = 1) := by subst eo; interval_cases a <;> interval_cases b <;> decide
  have c30 : (o.sshiftRight 30 <<< 31).msb = decide (a = 1) := by subst eo; interval_cases a <;> interval_cases b <;> decide
  have c0 : (o <<< 31).msb = decide ((4 * a + b) % 2 = 1) := by subst eo; interval_cases a <;> interval_cases b <;> decide
  have cl : BitVec.sle 0 o = !o.msb := BitVec.zero_sle_eq_not_msb
  have c16 : (o ||| o.sshiftRight 28).toNat % 16 = 4 * a + b := by subst eo; interval_cases a <;> interval_cases b <;> decide
  have c8 : (o.sshiftRight 1 ||| o.sshiftRight 29).toNat % 8 = (4 * a + b) / 2 := by subst eo; interval_cases a <;> interval_cases b <;> decide
  have ho' : 4 * a + b < 12 := by omega
  have g1 : sg (decide (r % 2 = 1)) * maskedAdd (BitVec.sle 0 d) (selectHighBit (d <<< 2) y x * selectHighBit d 2 root3) (xorSign (selectHighBit (d <<< 2) x y) (d.sshiftRight 30 <<< 31))
      = dot2 (simplex2 ⟨r, hr⟩) x y := by
    simp only [xorSign_eq, bl, b30, b29, b31, selectHighBit, maskedAdd, dot2]
    clear hd e b31 b29 b30 b28 bl e28 e29 bx
    interval_cases r <;> simp [simplex2, root3, sg] <;> try (ring_nf; try simp)
  have g2 : ∀ q, selectHighBit (o <<< 30) (xorSign (masked (BitVec.sle 0 o) q) (o.sshiftRight 30 <<< 31)) (q * selectHighBit o 2 root3) = q * (sg (decide ((4 * a + b) % 2 = 1)) * (simplex2 ⟨4 * a + b, ho'⟩).1) ∧
      selectHighBit (o <<< 30) (q * selectHighBit o 2 root3) (xorSign (masked (BitVec.sle 0 o) q) (o.sshiftRight 30 <<< 31)) = q * (sg (decide ((4 * a + b) % 2 = 1)) * (simplex2 ⟨4 * a + b, ho'⟩).2) := by
    intro q
    simp only [xorSign_eq, cl, c30, c31, c1, selectHighBit, masked]
    clear hd ho e b31 b29 b30 b28 bl e28 e29 bx eo c31 c1 c30 c0 cl c16 c8 g1
    interval_cases a <;> interval_cases b <;> simp [simplex2, root3, sg]
  rcases ft with ⟨x8, _, av, a2, a5⟩
  cases a5
  · cases av
    · simp only [Bool.false_eq_true, if_false, xorSign_eq _ ((d.sshiftRight 28 ^^^ o) <<< 31), bx, c0, sg_xor]
      rw [show ∀ u w p : ℝ, m * (u * w * p) = m * (w * (u * p)) by intros; ring, g1, (g2 _).1, (g2 _).2]
      generalize decide ((4 * a + b) % 2 = 1) = q
      refine Prod.ext ?_ ?_ <;> cases q <;> simp [sg]
    · simp only [Bool.false_eq_true, if_false, if_true, xorSign_eq, bx, c0, sg_xor, outer2_8 r hr _ e29, outer2_8 (4 * a + b) ho' _ c8, fma, dot2]
      generalize decide ((4 * a + b) % 2 = 1) = q, decide (r % 2 = 1) = p
      refine Prod.ext ?_ ?_ <;> cases q <;> cases p <;> simp [sg] <;> ring
  · simp only [if_true, outer2_512 r hr _ e28, outer2_512 (4 * a + b) ho' _ c16, fma, dot2]
    refine Prod.ext ?_ ?_ <;> simp only <;> ring

theorem first12 (h : I32) (hm : h.msb = false) : ((h >>> 1) * 3).toNat / 2 ^ 28 = firstOf12 h := by
  have h31 := lt31 hm
  rw [BitVec.toNat_mul, shr_toNat, show BitVec.toNat (3 : I32) = 3 from rfl, Nat.mod_eq_of_lt (by omega)]
  simp only [firstOf12, Nat.reducePow]
  omega

theorem outer2_eq (ft : Feat) (h : I32) (hm : h.msb = false) (x y m : ℝ) (v : ℝ × ℝ) :
    outer2 ft h x y m v = (v.1 + m * dot2 (simplex2 (firstOf12 h)) x y * (simplex2 (secondOf12 h)).1, v.2 + m * dot2 (simplex2 (firstOf12 h)) x y * (simplex2 (secondOf12 h)).2) :=
  outer2_aux ft h _ _ rfl rfl x y m v (firstOf12 h) (firstOf12 h).isLt (first12 h hm) (2 * (h.toNat / 2) % 3) (3 * (h.toNat / 2) % 4) (by omega) (by omega) (outer_index h hm)

theorem outer3_512 (r : Nat) (hr : r < 12) (i : I32) (e : i.toNat % 16 = r) :
    perm16 i outer3X = (edges3 ⟨r, hr⟩).1 ∧ perm16 i outer3Y = (edges3 ⟨r, hr⟩).2.1 ∧ perm16 i outer3Z = (edges3 ⟨r, hr⟩).2.2 := by
  unfold perm16; rw [e]; clear e
  interval_cases r <;> simp [edges3, common3, outer3X, outer3Y, outer3Z]

theorem outer3_aux (ft : Feat) (h d o : I32) (hd : ((h >>> 1) * 3) >>> 28 = d) (ho : ((h >>> 1) * 0xAAAAAAAB#32) &&& 0xC0000003#32 = o) (x y z m : ℝ) (v : ℝ × ℝ × ℝ) (r : Nat) (hr : r < 12)
    (e : d = BitVec.ofNat 32 r) (a b : Nat) (ha : a < 3) (hb : b < 4) (eo : o = BitVec.ofNat 32 (a * 2 ^ 30 + b)) :
    outer3 ft h x y z m v = (v.1 + m * dot3 (edges3 ⟨r, hr⟩) x y z * (edges3 ⟨4 * a + b, by omega⟩).1, v.2.1 + m * dot3 (edges3 ⟨r, hr⟩) x y z * (edges3 ⟨4 * a + b, by omega⟩).2.1,
      v.2.2 + m * dot3 (edges3 ⟨r, hr⟩) x y z * (edges3 ⟨4 * a + b, by omega⟩).2.2) := by
  unfold outer3
  simp only [hd, ho]
  have e28 : d.toNat % 16 = r := by subst e; simp only [BitVec.toNat_ofNat]; omega
  have c16 : (o ||| o.sshiftRight 28).toNat % 16 = 4 * a + b := by subst eo; interval_cases a <;> interval_cases b <;> decide
  have cand : (o ||| o.sshiftRight 28) &&& 15#32 = BitVec.ofNat 32 (4 * a + b) := by subst eo; interval_cases a <;> interval_cases b <;> decide
  have ho' : 4 * a + b < 12 := by omega
  have g1 : xorSign (if ft.sse41 then selectHighBit (d <<< 28) y x else select (BitVec.sle 8 d) y x) (d <<< 31) + xorSign (select (BitVec.sle 4 d) z y) (d.sshiftRight 1 <<< 31) = dot3 (edges3 ⟨r, hr⟩) x y z := by
    subst e
    clear hd e28
    rcases ft with ⟨_, s4, _, _, _⟩
    cases s4 <;> interval_cases r <;> simp [xorSign, select, selectHighBit, dot3, edges3, common3, BitVec.msb_eq_decide]
  rcases ft with ⟨x8, s4, av, a2, a5⟩
  cases a5
  · simp only [Bool.false_eq_true, if_false] at g1 ⊢
    rw [g1, show (0xF : I32) = 15#32 from rfl, cand]
    generalize dot3 (edges3 ⟨r, hr⟩) x y z = D
    clear g1 hd e e28 ho eo c16 cand
    interval_cases a <;> interval_cases b <;> refine Prod.ext ?_ (Prod.ext ?_ ?_) <;>
      simp [xorSign, select, maskedAdd, invMaskedAdd, edges3, common3, BitVec.msb_eq_decide]
  · simp only [if_true, outer3_512 r hr _ e28, outer3_512 (4 * a + b) ho' _ c16, fma, dot3]
    refine Prod.ext ?_ (Prod.ext ?_ ?_) <;> simp only <;> ring

theorem outer3_eq (ft : Feat) (h : I32) (hm : h.msb = false) (x y z m : ℝ) (v : ℝ × ℝ × ℝ) :
    outer3 ft h x y z m v = (v.1 + m * dot3 (edges3 (firstOf12 h)) x y z * (edges3 (secondOf12 h)).1, v.2.1 + m * dot3 (edges3 (firstOf12 h)) x y z * (edges3 (secondOf12 h)).2.1,
      v.2.2 + m * dot3 (edges3 (firstOf12 h)) x y z * (edges3 (secondOf12 h)).2.2) := by
  refine outer3_aux ft h _ _ rfl rfl x y z m v (firstOf12 h) (firstOf12 h).isLt ?_ (2 * (h.toNat / 2) % 3) (3 * (h.toNat / 2) % 4) (by omega) (by omega) (outer_index h hm)
  apply BitVec.eq_of_toNat_eq
  rw [shr_toNat, first12 h hm, BitVec.toNat_ofNat, Nat.mod_eq_of_lt]
  have := (firstOf12 h).isLt
  omega

/-! ## 4D outer product -/

theorem first20 (h : I32) (hm : h.msb = false) : ((h >>> 2) * 5).toNat / 2 ^ 27 = firstOf20 h := by
  have h31 := lt31 hm
  rw [BitVec.toNat_mul, shr_toNat, show BitVec.toNat (5 : I32) = 5 from rfl, Nat.mod_eq_of_lt (by omega)]
  simp only [firstOf20, Nat.reducePow]
  omega

theorem and_ends3 (x : I32) : x &&& 0xE0000003#32 = BitVec.ofNat 32 (x.toNat / 2 ^ 29 * 2 ^ 29 + x.toNat % 4) := by
  have e : x.toNat / 2 ^ 29 * 2 ^ 29 + x.toNat % 4 = x.toNat / 2 ^ 29 * 2 ^ 29 ||| x.toNat % 4 := by
    rw [← Nat.shiftLeft_eq]; exact (Nat.shiftLeft_add_eq_or_of_lt (by omega) _)
  rw [e]
  apply BitVec.eq_of_getLsbD_eq
  intro i hi
  have key : ∀ j : Fin 32, (0xE0000003#32).getLsbD j = (decide (29 ≤ (j : Nat)) || decide ((j : Nat) < 2)) := by decide
  rw [BitVec.getLsbD_and, key ⟨i, hi⟩, BitVec.getLsbD_ofNat, Nat.testBit_or, ← Nat.shiftLeft_eq, Nat.testBit_shiftLeft, ← Nat.shiftRight_eq_div_pow, Nat.testBit_shiftRight,
    show (4 : Nat) = 2 ^ 2 from rfl, Nat.testBit_mod_two_pow, BitVec.testBit_toNat, BitVec.testBit_toNat]
  by_cases h1 : 29 ≤ i
  · simp [hi, h1, show ¬ i < 2 by omega, show 29 + (i - 29) = i by omega]
  · by_cases h2 : i < 2 <;> simp [hi, h1, h2]

theorem second20 (h : I32) (hm : h.msb = false) : ((((h >>> 2) * 0xCCCCCCCD#32) &&& 0xE0000003#32) * (3 ||| (1 <<< 27))).toNat / 2 ^ 27 = secondOf20 h := by
  have h31 := lt31 hm
  rw [and_ends3, BitVec.toNat_mul (h >>> 2), shr_toNat]
  have e : BitVec.toNat (0xCCCCCCCD#32) = 3435973837 := by decide
  rw [e]
  have f : h.toNat / 2 ^ 2 = h.toNat / 4 := by norm_num
  rw [f]
  simp only [secondOf20]
  have hs : h.toNat / 4 < 536870912 := by omega
  revert hs
  generalize h.toNat / 4 = s
  intro hs
  obtain ⟨q, r, hr, rfl⟩ : ∃ q r, r < 5 ∧ s = 5 * q + r := ⟨s / 5, s % 5, Nat.mod_lt _ (by decide), by omega⟩
  have e2 : (5 * q + r) * 3435973837 % 2 ^ 32 % 4 = (5 * q + r) % 4 := by omega
  have e1 : (5 * q + r) * 3435973837 % 2 ^ 32 / 2 ^ 29 = [0, 6, 4, 3, 1].getD r 0 := by
    rw [show (5 * q + r) * 3435973837 = q + r * 3435973837 + q * 4 * 2 ^ 32 by ring, Nat.add_mul_mod_self_right]
    interval_cases r <;> simp <;> omega
  have e3 : 2 * (5 * q + r) % 5 = 2 * r % 5 := by omega
  rw [e1, e2, e3]
  have hl : (5 * q + r) % 4 < 4 := Nat.mod_lt _ (by decide)
  generalize (5 * q + r) % 4 = l at *
  clear e1 e2 e3 hs
  interval_cases r <;> interval_cases l <;> decide

theorem outer4_512 (i : I32) (r : Nat) (hr : r < 20) (e : i.toNat % 32 = r) :
    (perm32 tableX i (tableX.map (- ·)), perm32 tableY i (tableY.map (- ·)), perm32 tableZ i (tableZ.map (- ·)), perm32 tableW i (tableW.map (- ·))) = simplex4 ⟨r, hr⟩ := by
  unfold perm32; rw [e]; clear e
  interval_cases r <;> simp [simplex4, tableX, tableY, tableZ, tableW, skew4]

theorem outer4_eq (ft : Feat) (h : I32) (hm : h.msb = false) (x y z w m : ℝ) (v : ℝ × ℝ × ℝ × ℝ) :
    outer4 ft h x y z w m v = (v.1 + m * dot4 (simplex4 (firstOf20 h)) x y z w * (simplex4 (secondOf20 h)).1, v.2.1 + m * dot4 (simplex4 (firstOf20 h)) x y z w * (simplex4 (secondOf20 h)).2.1,
      v.2.2.1 + m * dot4 (simplex4 (firstOf20 h)) x y z w * (simplex4 (secondOf20 h)).2.2.1, v.2.2.2 + m * dot4 (simplex4 (firstOf20 h)) x y z w * (simplex4 (secondOf20 h)).2.2.2) := by
  have f := first20 h hm
  have s := second20 h hm
  unfold outer4
  have g1 := simplexGrad4_eq _ _ (firstOf20 h).isLt f
  have g2 := simplexGrad4_eq _ _ (secondOf20 h).isLt s
  have t1 := outer4_512 (((h >>> 2) * 5) >>> 27) _ (firstOf20 h).isLt (by rw [shr_toNat, f]; have := (firstOf20 h).isLt; omega)
  have t2 := outer4_512 (((((h >>> 2) * 0xCCCCCCCD#32) &&& 0xE0000003#32) * (3 ||| (1 <<< 27))) >>> 27) _ (secondOf20 h).isLt (by rw [shr_toNat, s]; have := (secondOf20 h).isLt; omega)
  rcases ft with ⟨x8, s4, av, a2, a5⟩
  cases a5
  · simp only [Bool.false_eq_true, if_false, g1, g2, fma, dot4]
    refine Prod.ext ?_ (Prod.ext ?_ (Prod.ext ?_ ?_)) <;> simp only <;> ring
  · simp only [if_true, fma, dot4]
    rw [← t1, ← t2]
    refine Prod.ext ?_ (Prod.ext ?_ (Prod.ext ?_ ?_)) <;> simp only <;> ring

end FastNoise.WarpGrad
