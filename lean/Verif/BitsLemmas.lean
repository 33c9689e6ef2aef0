import Verif.Num

/-! Bit fields of a hash as quotient and remainder. -/
namespace FastNoise
open FastNoise.Num

theorem toInt_small (x : BitVec 32) (h : x.toNat < 2 ^ 31) : x.toInt = (x.toNat : ℤ) := by
  rw [BitVec.toInt_eq_toNat_cond, if_pos (by omega)]

/-- `( hash >> s ) & ( 2^w - 1 )` with an arithmetic shift. -/
theorem field_sar (h : BitVec 32) (s w : Nat) (hw : w < 32) (hs : s + w ≤ 32) :
    (h.sshiftRight s &&& BitVec.ofNat 32 (2 ^ w - 1)).toInt = ((h.toNat / 2 ^ s % 2 ^ w : ℕ) : ℤ) := by
  have hp : 2 ^ w ≤ 2 ^ 31 := Nat.pow_le_pow_right (by omega) (by omega)
  have hp1 : 0 < 2 ^ w := Nat.two_pow_pos w
  have e : (h.sshiftRight s &&& BitVec.ofNat 32 (2 ^ w - 1)).toNat = h.toNat / 2 ^ s % 2 ^ w := by
    apply Nat.eq_of_testBit_eq
    intro i
    rw [Nat.testBit_mod_two_pow, Nat.testBit_div_two_pow]
    rw [BitVec.toNat_and, Nat.testBit_and, BitVec.toNat_ofNat, Nat.mod_eq_of_lt (by omega), Nat.testBit_two_pow_sub_one]
    by_cases hi : i < w
    · simp only [hi, decide_true, Bool.and_true, Bool.true_and]
      rw [BitVec.testBit_toNat, BitVec.getLsbD_sshiftRight, BitVec.testBit_toNat, if_pos (by omega)]
      simp [show ¬ 32 ≤ i by omega, Nat.add_comm]
    · simp [hi]
  rw [toInt_small _ (by rw [e]; exact lt_of_lt_of_le (Nat.mod_lt _ hp1) hp), e]

/-- `hash & ( 2^w - 1 )`. -/
theorem field_low (h : BitVec 32) (w : Nat) (hw : w < 32) :
    (h &&& BitVec.ofNat 32 (2 ^ w - 1)).toInt = ((h.toNat % 2 ^ w : ℕ) : ℤ) := by
  have := field_sar h 0 w hw (by omega)
  simpa using this

/-- `hash >> s` with a logical shift: the top bits. -/
theorem field_top (h : BitVec 32) (s w : Nat) (hs : s + w = 32) (h0 : 0 < s) :
    (h >>> s).toInt = ((h.toNat / 2 ^ s % 2 ^ w : ℕ) : ℤ) := by
  have e : (h >>> s).toNat = h.toNat / 2 ^ s := by rw [BitVec.toNat_ushiftRight, Nat.shiftRight_eq_div_pow]
  have hlt : h.toNat / 2 ^ s < 2 ^ w := by
    rw [Nat.div_lt_iff_lt_mul (Nat.two_pow_pos s), ← Nat.pow_add, Nat.add_comm, hs]; exact h.isLt
  have : 2 ^ w ≤ 2 ^ 31 := Nat.pow_le_pow_right (by omega) (by omega)
  rw [toInt_small _ (by omega), e, Nat.mod_eq_of_lt hlt]

end FastNoise
