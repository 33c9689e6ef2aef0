import Verif.EditorText
import Verif.EditorFileSpec
import Mathlib.Tactic.FieldSimp
/-! # What becomes of a saved float, in terms of its value -/
namespace FastNoise.Editor

theorem expField_eq (v : UInt32) : expField v = v.toNat % 2 ^ 31 / 2 ^ 23 := by unfold expField; omega
theorem fracField_eq (v : UInt32) : fracField v = v.toNat % 2 ^ 31 % 2 ^ 23 := by unfold fracField; omega

theorem isFin_iff (v : UInt32) : IsFin v ↔ v.toNat % 2 ^ 31 < 0x7f800000 := by unfold IsFin; rw [expField_eq]; omega
theorem isInf_iff (v : UInt32) : IsInf v ↔ v.toNat % 2 ^ 31 = 0x7f800000 := by unfold IsInf; rw [expField_eq, fracField_eq]; omega
theorem isNan_iff (v : UInt32) : IsNan v ↔ 0x7f800000 < v.toNat % 2 ^ 31 := by unfold IsNan; rw [expField_eq, fracField_eq]; omega

theorem val_core {P Q : ℚ} (hP : P ≠ 0) (m e : ℚ) (h : Q = 2 * P) : m * (2 * e) / Q = m * e / P := by
  subst h; field_simp

theorem absVal_eq (v : UInt32) : absVal v = (floatUnits (v.toNat % 2 ^ 31) : ℚ) / 2 ^ 149 := by
  have hP : (2 : ℚ) ^ 149 ≠ 0 := by positivity
  unfold absVal floatUnits
  rw [← expField_eq, ← fracField_eq]
  by_cases h : expField v = 0
  · rw [if_pos h, if_pos h]
    have : fracField v = v.toNat % 2 ^ 31 := by rw [expField_eq] at h; rw [fracField_eq]; omega
    rw [this]
  · rw [if_neg h, if_neg h]
    obtain ⟨e, he⟩ : ∃ e, expField v = e + 1 := ⟨expField v - 1, by omega⟩
    rw [he, Nat.add_sub_cancel, pow_succ' (2 : ℚ) e, Nat.cast_mul, Nat.add_comm (fracField v), Nat.cast_pow, Nat.cast_ofNat]
    exact val_core hP _ _ (pow_succ' (2 : ℚ) 149)

theorem near_core {U V T : Nat} (hT : 0 < T) (h1 : U * 1000000 ≤ V * 1000000 + T) (h2 : V * 1000000 ≤ U * 1000000 + T) :
    |(U : ℚ) / (T : ℚ) - (V : ℚ) / (T : ℚ)| ≤ 1 / 1000000 := by
  have hT' : (0 : ℚ) < T := by exact_mod_cast hT
  have h1' : (U : ℚ) * 1000000 ≤ V * 1000000 + T := by exact_mod_cast h1
  have h2' : (V : ℚ) * 1000000 ≤ U * 1000000 + T := by exact_mod_cast h2
  rw [← sub_div, abs_div, abs_of_pos hT', div_le_div_iff₀ hT' (by norm_num), one_mul]
  rcases abs_cases ((U : ℚ) - V) with ⟨e, _⟩ | ⟨e, _⟩ <;> rw [e] <;> linarith

theorem units_lt {b : Nat} (h : b < 0x41800000) : floatUnits b < 16 * 2 ^ 149 := by
  obtain ⟨s, m, hbm, hm, hsm, hs⟩ := float_split b
  have hs129 : s ≤ 129 := by omega
  have hu : floatUnits b = m * 2 ^ s := by rw [hbm]; exact floatUnits_mul (Nat.le_of_lt hm) hsm
  have hV : floatUnits b ≤ 16777215 * 2 ^ 129 := by
    rw [hu]; exact Nat.mul_le_mul (by omega) (Nat.pow_le_pow_right (by omega) hs129)
  refine lt_of_le_of_lt hV ?_
  rw [show (16 : Nat) * 2 ^ 149 = 16777216 * 2 ^ 129 by norm_num]
  exact Nat.mul_lt_mul_of_pos_right (by omega) (by positivity)

theorem large_core {U T : Nat} (hT : 0 < T) (h : U < 16 * T) : (U : ℚ) / (T : ℚ) < 16 := by
  have hT' : (0 : ℚ) < T := by exact_mod_cast hT
  rw [div_lt_iff₀ hT']
  exact_mod_cast h

theorem reloadF_mag (v : UInt32) : (reloadF v).toNat % 2 ^ 31 = reloadMag (v.toNat % 2 ^ 31) := by
  have := reloadMag_lt (v.toNat % 2 ^ 31)
  rw [reloadF_toNat]
  split_ifs
  · exact Nat.mod_eq_of_lt this
  · rw [Nat.add_mod_left]; exact Nat.mod_eq_of_lt this

theorem reloadF_eq {v : UInt32} (h : reloadMag (v.toNat % 2 ^ 31) = v.toNat % 2 ^ 31) : reloadF v = v := by
  rw [← UInt32.toNat_inj, reloadF_toNat, h]
  have := v.toNat_lt
  split_ifs <;> omega

theorem savedValue_reload (v : UInt32) : SavedValue v (reloadF v) where
  sign := by
    have := reloadMag_lt (v.toNat % 2 ^ 31)
    unfold isNeg
    rw [reloadF_toNat]
    split_ifs <;> omega
  fin h := by
    rw [isFin_iff] at h ⊢
    rw [reloadF_mag, reloadMag, if_pos h]
    exact (reread_near h).1
  near h := by
    rw [isFin_iff] at h
    rw [absVal_eq, absVal_eq, reloadF_mag, reloadMag, if_pos h]
    obtain ⟨_, h1, h2⟩ := reread_near h
    have := near_core (T := 2 ^ 149) (by positivity) h1 h2
    rw [Nat.cast_pow, Nat.cast_ofNat] at this
    exact this
  large h h16 := by
    rw [isFin_iff] at h
    refine reloadF_eq ?_
    rw [reloadMag, if_pos h]
    refine reread_large h ?_
    by_contra hc
    have := large_core (T := 2 ^ 149) (by positivity) (units_lt (Nat.lt_of_not_le hc))
    rw [Nat.cast_pow, Nat.cast_ofNat] at this
    rw [absVal_eq] at h16
    exact absurd h16 (not_le.mpr this)
  inf h := by
    rw [isInf_iff] at h
    refine reloadF_eq ?_
    rw [h, reloadMag, if_neg (by omega), if_pos rfl]
  nan h := by
    rw [isNan_iff] at h ⊢
    rw [reloadF_mag, reloadMag, if_neg (by omega), if_neg (by omega)]
    norm_num

end FastNoise.Editor
