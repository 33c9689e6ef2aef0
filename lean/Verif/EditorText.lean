import Verif.EditorFile
import Mathlib.Tactic.Ring
import Mathlib.Tactic.Linarith
import Mathlib.Tactic.IntervalCases
import Mathlib.Tactic.NormNum
import Mathlib.Tactic.Positivity
/-! # Numbers of the settings file: what is written is read back -/
namespace FastNoise.Editor

/-! ## Digits -/

theorem digit_spec {k : Nat} (h : k < 10) : isDig (digit k) = true ∧ (digit k).toNat - 48 = k ∧ digit k ≠ '-' ∧ digit k ≠ '+' ∧ digit k ≠ 'i' ∧ digit k ≠ 'n' := by
  interval_cases k <;> decide

/-- `rest` does not begin with a digit. -/
def NoDig (rest : List Char) : Prop := ∀ c cs, rest = c :: cs → isDig c = false

theorem scanDigits_stop {acc : Nat} {rest : List Char} (h : NoDig rest) : scanDigits acc rest = (acc, rest) := by
  cases rest with
  | nil => rfl
  | cons c cs => rw [scanDigits, h c cs rfl]; rfl

theorem scanDigits_digit {acc k : Nat} (hk : k < 10) (rest : List Char) : scanDigits acc (digit k :: rest) = scanDigits (10 * acc + k) rest := by
  obtain ⟨h1, h2, _⟩ := digit_spec hk
  rw [scanDigits, h1, h2]; rfl

theorem scanDigits_digits : ∀ (f n : Nat), n < 10 ^ f → 0 < f → ∀ (acc : Nat) (rest : List Char),
    scanDigits acc (digits f n ++ rest) = scanDigits (acc * 10 ^ (digits f n).length + n) rest := by
  intro f
  induction f with
  | zero => intro n _ h; omega
  | succ f ih =>
    intro n hn _ acc rest
    rw [digits]
    split_ifs with h
    · rw [List.singleton_append, scanDigits_digit h]; simp [Nat.mul_comm]
    · have hf : 0 < f := by
        rcases Nat.eq_zero_or_pos f with rfl | h'
        · simp at hn; omega
        · exact h'
      rw [List.append_assoc, ih (n / 10) (by rw [pow_succ] at hn; omega) hf, List.singleton_append, scanDigits_digit (Nat.mod_lt _ (by omega)), List.length_append,
        List.length_singleton, pow_succ]
      congr 1
      have := Nat.div_add_mod n 10
      rw [← Nat.mul_assoc]
      generalize acc * 10 ^ (digits f (n / 10)).length = y
      omega

theorem dec_fuel (n : Nat) : n < 10 ^ (n.log2 + 1) := by
  have h1 : n < 2 ^ (n.log2 + 1) := Nat.lt_log2_self
  exact lt_of_lt_of_le h1 (Nat.pow_le_pow_left (by omega) _)

theorem digits_head : ∀ (f n : Nat), 0 < f → n < 10 ^ f → ∃ k cs, k < 10 ∧ digits f n = digit k :: cs := by
  intro f
  induction f with
  | zero => intro n h; omega
  | succ f ih =>
    intro n _ hn
    rw [digits]
    split_ifs with h
    · exact ⟨n, [], h, rfl⟩
    · have hf : 0 < f := by
        rcases Nat.eq_zero_or_pos f with rfl | h'
        · simp at hn; omega
        · exact h'
      obtain ⟨k, cs, hk, e⟩ := ih (n / 10) hf (by rw [pow_succ] at hn; omega)
      exact ⟨k, cs ++ [digit (n % 10)], hk, by rw [e]; rfl⟩

theorem dec_head (n : Nat) : ∃ k cs, k < 10 ∧ dec n = digit k :: cs := digits_head _ _ (by omega) (dec_fuel n)

theorem scanU_dec (n : Nat) (rest : List Char) (h : NoDig rest) : scanU (dec n ++ rest) = some (n, rest) := by
  obtain ⟨k, cs, hk, e⟩ := dec_head n
  have h1 : scanDigits 0 (dec n ++ rest) = (n, rest) := by
    unfold dec
    rw [scanDigits_digits _ _ (dec_fuel n) (by omega), scanDigits_stop h]; simp
  rw [e] at h1 ⊢
  rw [List.cons_append] at h1 ⊢
  rw [scanU, (digit_spec hk).1, h1]; rfl

theorem scanSign_digit {k : Nat} (hk : k < 10) (cs : List Char) : scanSign (digit k :: cs) = (false, digit k :: cs) := by
  obtain ⟨_, _, h1, h2, _⟩ := digit_spec hk
  unfold scanSign
  split
  · rename_i h; exact absurd (List.cons.inj h).1 h1
  · rename_i h; exact absurd (List.cons.inj h).1 h2
  · rfl

/-- An `int` is read back exactly. -/
theorem scanD_printD (v : UInt32) (rest : List Char) (h : NoDig rest) : scanD (printD v ++ rest) = some (v, rest) := by
  have hv := v.toNat_lt
  unfold printD
  split_ifs with hs
  · obtain ⟨k, cs, hk, e⟩ := dec_head v.toNat
    have h1 := scanU_dec v.toNat rest h
    unfold scanD
    rw [e] at h1 ⊢
    rw [List.cons_append] at h1 ⊢
    rw [scanSign_digit hk]
    simp only [h1, Option.map_some]
    simp
  · have h1 := scanU_dec (2 ^ 32 - v.toNat) rest h
    unfold scanD
    simp only [List.cons_append, scanSign, h1, Option.map_some, if_true]
    congr 2
    rw [← UInt32.toNat_inj]
    simp only [UInt32.toNat_ofNat']
    have : (2 ^ 32 - v.toNat) % 2 ^ 32 = 2 ^ 32 - v.toNat := Nat.mod_eq_of_lt (by omega)
    rw [this]
    omega

/-! ## Rounding -/

theorem roundDiv_near {a b m : Nat} (h1 : 2 * a < 2 * (m * b) + b) (h2 : 2 * (m * b) < 2 * a + b) : roundDiv a b = m := by
  have hb : 0 < b := by
    rcases Nat.eq_zero_or_pos b with rfl | h
    · omega
    · exact h
  have hd := Nat.div_add_mod a b
  have hr := Nat.mod_lt a hb
  unfold roundDiv
  simp only
  generalize a / b = q at *
  generalize a % b = r at *
  have hq : q = m ∨ q + 1 = m := by
    by_contra hc
    push Not at hc
    rcases Nat.lt_or_ge m q with hlt | hge
    · have : (m + 1) * b ≤ q * b := Nat.mul_le_mul_right b hlt
      have e1 : (m + 1) * b = m * b + b := by ring
      have e2 : b * q = q * b := Nat.mul_comm _ _
      omega
    · have : (q + 2) * b ≤ m * b := Nat.mul_le_mul_right b (by omega)
      have e1 : (q + 2) * b = q * b + 2 * b := by ring
      have e2 : b * q = q * b := Nat.mul_comm _ _
      omega
  have e2 : b * q = q * b := Nat.mul_comm _ _
  rcases hq with rfl | rfl
  · rw [if_pos (by omega)]
  · have e1 : (q + 1) * b = q * b + b := by ring
    rw [if_neg (by omega), if_pos (by omega)]

theorem roundDiv_err (a : Nat) {b : Nat} (hb : 0 < b) : 2 * a ≤ 2 * (roundDiv a b * b) + b ∧ 2 * (roundDiv a b * b) ≤ 2 * a + b := by
  have hd := Nat.div_add_mod a b
  have hr := Nat.mod_lt a hb
  unfold roundDiv
  simp only
  generalize a / b = q at *
  generalize a % b = r at *
  have e2 : b * q = q * b := Nat.mul_comm _ _
  have e1 : (q + 1) * b = q * b + b := by ring
  split_ifs with h1 h2
  · omega
  · omega
  · have : q + q % 2 = q ∨ q + q % 2 = q + 1 := by omega
    rcases this with h | h <;> rw [h] <;> omega

theorem roundDiv_exact (m : Nat) {b : Nat} (hb : 0 < b) : roundDiv (m * b) b = m := roundDiv_near (by omega) (by omega)

/-! ## Floats -/

/-- Mantissa times a power of two. -/
theorem floatUnits_mul {s m : Nat} (hm : m ≤ 2 ^ 24) (hs : s = 0 ∨ 2 ^ 23 ≤ m) : floatUnits (s * 2 ^ 23 + m) = m * 2 ^ s := by
  unfold floatUnits
  rcases Nat.lt_or_ge m (2 ^ 23) with h | h
  · have : s = 0 := by omega
    subst this
    rw [if_pos (by omega)]; omega
  · rw [if_neg (by omega)]
    rcases Nat.lt_or_ge m (2 ^ 24) with h' | h'
    · have e1 : (s * 2 ^ 23 + m) % 2 ^ 23 = m - 2 ^ 23 := by omega
      have e2 : (s * 2 ^ 23 + m) / 2 ^ 23 = s + 1 := by omega
      rw [e1, e2, Nat.add_sub_cancel, Nat.sub_add_cancel h]
    · have e0 : m = 2 ^ 24 := by omega
      subst e0
      have e1 : (s * 2 ^ 23 + 2 ^ 24) % 2 ^ 23 = 0 := by omega
      have e2 : (s * 2 ^ 23 + 2 ^ 24) / 2 ^ 23 = s + 2 := by omega
      rw [e1, e2, show s + 2 - 1 = s + 1 by omega, pow_succ]; ring

/-- Every float is a mantissa times a power of two. -/
theorem float_split (b : Nat) : ∃ s m, b = s * 2 ^ 23 + m ∧ m < 2 ^ 24 ∧ (s = 0 ∨ 2 ^ 23 ≤ m) ∧ s = b / 2 ^ 23 - 1 := by
  by_cases h : b / 2 ^ 23 = 0
  · exact ⟨0, b, by omega, by omega, Or.inl rfl, by omega⟩
  · exact ⟨b / 2 ^ 23 - 1, b % 2 ^ 23 + 2 ^ 23, by omega, by omega, Or.inr (by omega), rfl⟩

theorem log2_bounds {q k : Nat} (h1 : 2 ^ k ≤ q) (h2 : q < 2 ^ (k + 1)) : q.log2 = k := by
  have h0 : q ≠ 0 := by have := Nat.pow_pos (n := k) (show 0 < 2 by omega); omega
  have a : k ≤ q.log2 := (Nat.le_log2 h0).mpr h1
  have b : q.log2 < k + 1 := (Nat.log2_lt h0).mpr h2
  omega

/-- The exponent `strtof` chooses. -/
def expo (num den : Nat) : Nat := (num * 2 ^ 149 / den).log2 - 23

theorem nearestFloat_eq (num den : Nat) : nearestFloat num den = min (expo num den * 2 ^ 23 + roundDiv (num * 2 ^ 149) (den * 2 ^ expo num den)) 0x7f800000 := rfl

/-- The nearest float to a float is that float. -/
theorem nearestFloat_exact {num den b : Nat} (hd : 0 < den) (hb : b < 0x7f800000) (h : num * 2 ^ 149 = den * floatUnits b) : nearestFloat num den = b := by
  obtain ⟨s, m, hbm, hm, hsm, hs⟩ := float_split b
  have hu : floatUnits b = m * 2 ^ s := by rw [hbm]; exact floatUnits_mul (by omega) hsm
  have hq : num * 2 ^ 149 / den = m * 2 ^ s := by rw [h, hu, Nat.mul_div_cancel_left _ hd]
  have hexp : expo num den = s := by
    unfold expo
    rw [hq]
    rcases hsm with rfl | h23
    · simp only [pow_zero, Nat.mul_one]
      rcases Nat.eq_zero_or_pos m with rfl | hpos
      · simp
      · have := (Nat.log2_lt (n := m) (by omega)).mpr hm
        omega
    · rw [log2_bounds (k := s + 23)]
      · omega
      · rw [Nat.add_comm, pow_add]; exact Nat.mul_le_mul_right _ h23
      · rw [show s + 23 + 1 = 24 + s by omega, pow_add]
        exact (Nat.mul_lt_mul_right (Nat.pow_pos (by omega))).mpr hm
  rw [nearestFloat_eq, hexp, h, hu, show den * (m * 2 ^ s) = m * (den * 2 ^ s) by ring, roundDiv_exact m (Nat.mul_pos hd (Nat.pow_pos (by omega))), ← hbm]
  exact Nat.min_eq_left (Nat.le_of_lt hb)

/-- The number behind the text of `%f`, in millionths. -/
def micro (b : Nat) : Nat := roundDiv (floatUnits b * 10 ^ 6) (2 ^ 149)

/-- The float that comes back from the text. -/
def reread (b : Nat) : Nat := nearestFloat (micro b) (10 ^ 6)

theorem micro_err (b : Nat) : 2 * (floatUnits b * 10 ^ 6) ≤ 2 * (micro b * 2 ^ 149) + 2 ^ 149 ∧ 2 * (micro b * 2 ^ 149) ≤ 2 * (floatUnits b * 10 ^ 6) + 2 ^ 149 :=
  roundDiv_err _ (by positivity)

/-- A value with at most six decimals comes back exactly. -/
theorem reread_exact {b n : Nat} (hb : b < 0x7f800000) (h : floatUnits b * 10 ^ 6 = n * 2 ^ 149) : reread b = b := by
  have hm : micro b = n := by unfold micro; rw [h]; exact roundDiv_exact n (by positivity)
  unfold reread
  refine nearestFloat_exact (by omega) hb ?_
  rw [hm, ← h, Nat.mul_comm]

/-! Linear arithmetic, with the powers of two as variables. -/

theorem core_low {X Y W T : Nat} (hT : T ≤ 524288 * W) (h1 : 2 * (Y * 1000000) ≤ 2 * X + T) (hY : 8388609 * W ≤ Y) : 8388608 * W * 1000000 ≤ X := by omega
theorem core_up {X Y W T : Nat} (hW : 0 < W) (hT : T ≤ 524288 * W) (h2 : 2 * X ≤ 2 * (Y * 1000000) + T) (hY : Y ≤ 16777215 * W) : X < 16777216 * W * 1000000 := by omega
theorem core_r1 {X Y W T : Nat} (hW : 0 < W) (hT : T ≤ 524288 * W) (h2 : 2 * X ≤ 2 * (Y * 1000000) + T) : 2 * X < 2 * (Y * 1000000) + 1000000 * W := by omega
theorem core_r2 {X Y W T : Nat} (hW : 0 < W) (hT : T ≤ 524288 * W) (h1 : 2 * (Y * 1000000) ≤ 2 * X + T) : 2 * (Y * 1000000) < 2 * X + 1000000 * W := by omega
theorem core_lt {X V K T : Nat} (hK : 0 < K) (hT : T = 1048576 * K) (hV : V ≤ 16777215 * K) (h2 : 2 * X ≤ 2 * (V * 1000000) + T) : X < 16777216 * K * 1000000 := by omega
theorem core_R24 {X Y P q r : Nat} (hq : 1000000 * q + r = X) (hr : r < 1000000) (hup : q < P * 16777216) (h : 2 * (1000000 * Y) ≤ 2 * X + 1000000 * P)
    (hY : 16777217 * P ≤ Y) : False := by omega
theorem core_R23 {X Y P q r : Nat} (hP : 0 < P) (hq : 1000000 * q + r = X) (hlo : P * 8388608 ≤ q) (h : 2 * X ≤ 2 * (1000000 * Y) + 1000000 * P)
    (hY : Y ≤ 8388607 * P) : False := by omega
theorem core_out1 {X Y P K : Nat} (hP : P ≤ 2 * K) (h : 2 * (1000000 * Y) ≤ 2 * X + 1000000 * P) : Y * 1000000 ≤ X + 1000000 * K := by omega
theorem core_out2 {X Y P K : Nat} (hP : P ≤ 2 * K) (h : 2 * X ≤ 2 * (1000000 * Y) + 1000000 * P) : X ≤ Y * 1000000 + 1000000 * K := by omega
theorem core_near1 {X V U K T : Nat} (hT : T = 2097152 * K) (h : U * 1000000 ≤ X + 1000000 * K) (h2 : 2 * X ≤ 2 * (V * 1000000) + T) : U * 1000000 ≤ V * 1000000 + T := by omega
theorem core_near2 {X V U K T : Nat} (hT : T = 2097152 * K) (h : X ≤ U * 1000000 + 1000000 * K) (h2 : 2 * (V * 1000000) ≤ 2 * X + T) : V * 1000000 ≤ U * 1000000 + T := by omega
theorem core_same1 {X U K T : Nat} (hK : 0 < K) (hT : T = 2097152 * K) (h : U * 1000000 ≤ X + 1000000 * K) : 2 * (U * 1000000) < 2 * X + T := by omega
theorem core_same2 {X U K T : Nat} (hK : 0 < K) (hT : T = 2097152 * K) (h : X ≤ U * 1000000 + 1000000 * K) : 2 * X < 2 * (U * 1000000) + T := by omega

theorem pow_149_128 : 2 ^ 149 = 2097152 * 2 ^ 128 := by norm_num
theorem pow_149_129 : 2 ^ 149 = 1048576 * 2 ^ 129 := by norm_num

/-- From 16 on a float comes back exactly. -/
theorem reread_large {b : Nat} (hb : b < 0x7f800000) (h : 0x41800000 ≤ b) : reread b = b := by
  obtain ⟨s, m, hbm, hm, hsm, hs⟩ := float_split b
  have hs130 : 130 ≤ s := by omega
  have hm23 : 8388608 ≤ m := by
    rcases hsm with h0 | h0
    · omega
    · exact h0
  have hu : floatUnits b = m * 2 ^ s := by rw [hbm]; exact floatUnits_mul (Nat.le_of_lt hm) (Or.inr hm23)
  have hW : 0 < 2 ^ s := Nat.pow_pos (by omega)
  have hT : 2 ^ 149 ≤ 524288 * 2 ^ s := by
    have h1 : 2 ^ 130 ≤ 2 ^ s := Nat.pow_le_pow_right (by omega) hs130
    calc 2 ^ 149 = 524288 * 2 ^ 130 := by norm_num
      _ ≤ 524288 * 2 ^ s := Nat.mul_le_mul_left _ h1
  rcases Nat.eq_or_lt_of_le hm23 with e | h'
  · obtain ⟨t, rfl⟩ : ∃ t, s = t + 126 := ⟨s - 126, by omega⟩
    refine reread_exact (n := 2 ^ t * 10 ^ 6) hb ?_
    rw [hu, ← e, pow_add, show (8388608 : Nat) = 2 ^ 23 by norm_num]
    rw [show (2 : Nat) ^ 149 = 2 ^ 23 * 2 ^ 126 by norm_num]; ring
  · obtain ⟨e1, e2⟩ := micro_err b
    rw [hu, show (10 : Nat) ^ 6 = 1000000 by norm_num] at e1 e2
    have hexp : expo (micro b) (10 ^ 6) = s := by
      unfold expo
      rw [log2_bounds (k := s + 23)]
      · omega
      · rw [Nat.le_div_iff_mul_le (by omega), pow_add, show (10 : Nat) ^ 6 = 1000000 by norm_num, Nat.mul_comm (2 ^ s)]
        exact core_low hT e1 (Nat.mul_le_mul_right _ h')
      · rw [Nat.div_lt_iff_lt_mul (by omega), show s + 23 + 1 = s + 24 by omega, pow_add, show (10 : Nat) ^ 6 = 1000000 by norm_num, Nat.mul_comm (2 ^ s)]
        exact core_up hW hT e2 (Nat.mul_le_mul_right _ (by omega))
    unfold reread
    rw [nearestFloat_eq, hexp, roundDiv_near (m := m), ← hbm]
    · exact Nat.min_eq_left (Nat.le_of_lt hb)
    · rw [show m * (10 ^ 6 * 2 ^ s) = m * 2 ^ s * 1000000 by ring]
      exact core_r1 hW hT e2
    · rw [show m * (10 ^ 6 * 2 ^ s) = m * 2 ^ s * 1000000 by ring]
      exact core_r2 hW hT e1

/-- Below 16: the float read is within 2^128 units (2^-21) of the decimal number. -/
theorem nearest_small {n : Nat} (hx : n * 2 ^ 149 / 1000000 < 2 ^ 153) : nearestFloat n (10 ^ 6) < 0x7f800000 ∧
    floatUnits (nearestFloat n (10 ^ 6)) * 1000000 ≤ n * 2 ^ 149 + 1000000 * 2 ^ 128 ∧ n * 2 ^ 149 ≤ floatUnits (nearestFloat n (10 ^ 6)) * 1000000 + 1000000 * 2 ^ 128 := by
  have hE : expo n 1000000 ≤ 129 := by
    unfold expo
    by_cases h0 : n * 2 ^ 149 / 1000000 = 0
    · rw [h0]; simp
    · have := (Nat.log2_lt h0).mpr hx
      omega
  have hq := Nat.div_add_mod (n * 2 ^ 149) 1000000
  have hqr := Nat.mod_lt (n * 2 ^ 149) (show 0 < 1000000 by omega)
  have hExpLow : expo n 1000000 = 0 ∨ 2 ^ (expo n 1000000 + 23) ≤ n * 2 ^ 149 / 1000000 := by
    by_cases h0 : expo n 1000000 = 0
    · exact Or.inl h0
    · right
      unfold expo at h0 ⊢
      have hq0 : n * 2 ^ 149 / 1000000 ≠ 0 := by intro e; rw [e] at h0; simp at h0
      rw [Nat.sub_add_cancel (by omega)]
      exact Nat.log2_self_le hq0
  have hExpUp : n * 2 ^ 149 / 1000000 < 2 ^ (expo n 1000000 + 24) := by
    unfold expo
    have : n * 2 ^ 149 / 1000000 < 2 ^ ((n * 2 ^ 149 / 1000000).log2 + 1) := Nat.lt_log2_self
    exact lt_of_lt_of_le this (Nat.pow_le_pow_right (by omega) (by omega))
  obtain ⟨r1, r2⟩ := roundDiv_err (n * 2 ^ 149) (b := 1000000 * 2 ^ expo n 1000000) (by positivity)
  have hpow : 2 ^ expo n 1000000 ≤ 2 * 2 ^ 128 := by
    rw [show (2 : Nat) * 2 ^ 128 = 2 ^ 129 by norm_num]
    exact Nat.pow_le_pow_right (by omega) hE
  have hP : 0 < 2 ^ expo n 1000000 := by positivity
  have hnf : nearestFloat n (10 ^ 6) = _ := nearestFloat_eq n (10 ^ 6)
  rw [show (10 : Nat) ^ 6 = 1000000 by norm_num] at hnf
  obtain ⟨E, hEe⟩ : ∃ E, expo n 1000000 = E := ⟨_, rfl⟩
  rw [hEe] at hnf hP hpow r1 r2 hExpUp hExpLow hE
  obtain ⟨R, hRe⟩ : ∃ R, roundDiv (n * 2 ^ 149) (1000000 * 2 ^ E) = R := ⟨_, rfl⟩
  rw [hRe] at hnf r1 r2
  rw [show R * (1000000 * 2 ^ E) = 1000000 * (R * 2 ^ E) by ring] at r1 r2
  rw [pow_add] at hExpUp hExpLow
  have hR24 : R ≤ 2 ^ 24 := by
    by_contra hc
    exact core_R24 hq hqr hExpUp r2 (Nat.mul_le_mul_right _ (show 16777217 ≤ R by omega))
  have hR23 : E = 0 ∨ 2 ^ 23 ≤ R := by
    rcases hExpLow with h0 | h0
    · exact Or.inl h0
    · right
      by_contra hc
      exact core_R23 hP hq h0 r1 (Nat.mul_le_mul_right _ (show R ≤ 8388607 by omega))
  have hlt : E * 2 ^ 23 + R < 0x7f800000 := by clear hnf hRe hEe r1 r2 hExpUp hExpLow hq hqr hx hpow; omega
  rw [Nat.min_eq_left (Nat.le_of_lt hlt)] at hnf
  rw [show (10 : Nat) ^ 6 = 1000000 by norm_num, hnf, floatUnits_mul hR24 hR23]
  exact ⟨hlt, core_out1 hpow r2, core_out2 hpow r1⟩

/-- Below 16: the float read back is within 2^128 units (2^-21) of the decimal number, so it prints the same. -/
theorem reread_small {b : Nat} (h : b < 0x41800000) : reread b < 0x7f800000 ∧
    floatUnits (reread b) * 1000000 ≤ micro b * 2 ^ 149 + 1000000 * 2 ^ 128 ∧ micro b * 2 ^ 149 ≤ floatUnits (reread b) * 1000000 + 1000000 * 2 ^ 128 := by
  obtain ⟨s, m, hbm, hm, hsm, hs⟩ := float_split b
  have hs129 : s ≤ 129 := by omega
  have hu : floatUnits b = m * 2 ^ s := by rw [hbm]; exact floatUnits_mul (Nat.le_of_lt hm) hsm
  have hV : floatUnits b ≤ 16777215 * 2 ^ 129 := by
    rw [hu]; exact Nat.mul_le_mul (by omega) (Nat.pow_le_pow_right (by omega) hs129)
  obtain ⟨e1, e2⟩ := micro_err b
  rw [show (10 : Nat) ^ 6 = 1000000 by norm_num] at e1 e2
  have hx : micro b * 2 ^ 149 / 1000000 < 2 ^ 153 := by
    rw [Nat.div_lt_iff_lt_mul (by omega), show (2 : Nat) ^ 153 = 16777216 * 2 ^ 129 by norm_num]
    exact core_lt (Nat.pow_pos (by omega)) pow_149_129 hV e2
  exact nearest_small hx

/-- What comes back is within a millionth. -/
theorem reread_near {b : Nat} (hb : b < 0x7f800000) : reread b < 0x7f800000 ∧
    floatUnits (reread b) * 1000000 ≤ floatUnits b * 1000000 + 2 ^ 149 ∧ floatUnits b * 1000000 ≤ floatUnits (reread b) * 1000000 + 2 ^ 149 := by
  rcases Nat.lt_or_ge b 0x41800000 with h | h
  · obtain ⟨h0, h1, h2⟩ := reread_small h
    obtain ⟨e1, e2⟩ := micro_err b
    rw [show (10 : Nat) ^ 6 = 1000000 by norm_num] at e1 e2
    exact ⟨h0, core_near1 pow_149_128 h1 e2, core_near2 pow_149_128 h2 e1⟩
  · rw [reread_large hb h]; exact ⟨hb, Nat.le_add_right _ _, Nat.le_add_right _ _⟩

/-- Saving what came back writes the same text again. -/
theorem micro_reread {b : Nat} (hb : b < 0x7f800000) : micro (reread b) = micro b := by
  rcases Nat.lt_or_ge b 0x41800000 with h | h
  · obtain ⟨h0, h1, h2⟩ := reread_small h
    rw [micro]
    refine roundDiv_near ?_ ?_
    · rw [show (10 : Nat) ^ 6 = 1000000 by norm_num]
      exact core_same1 (Nat.pow_pos (by omega)) pow_149_128 h1
    · rw [show (10 : Nat) ^ 6 = 1000000 by norm_num]
      exact core_same2 (Nat.pow_pos (by omega)) pow_149_128 h2
  · rw [reread_large hb h]

/-! ## Floats -/

/-- The magnitude that comes back from the text. -/
def reloadMag (b : Nat) : Nat := if b < 0x7f800000 then reread b else if b = 0x7f800000 then 0x7f800000 else 0x7fc00000

/-- The float that comes back from the text, with its sign. -/
def reloadF (v : UInt32) : UInt32 := UInt32.ofNat (if v.toNat < 2 ^ 31 then reloadMag (v.toNat % 2 ^ 31) else 2 ^ 31 + reloadMag (v.toNat % 2 ^ 31))

/-- The text of a magnitude. -/
def magText (b : Nat) : List Char :=
  if b < 0x7f800000 then dec (micro b / 10 ^ 6) ++ '.' :: six (micro b % 10 ^ 6)
  else if b = 0x7f800000 then "inf".toList else "nan".toList

theorem printF_eq (v : UInt32) : printF v = (if v.toNat < 2 ^ 31 then [] else ['-']) ++ magText (v.toNat % 2 ^ 31) := rfl

theorem scanDigits_six {acc n : Nat} (hn : n < 10 ^ 6) (rest : List Char) (h : NoDig rest) : scanDigits acc (six n ++ rest) = (acc * 10 ^ 6 + n, rest) := by
  unfold six
  simp only [List.cons_append, List.nil_append]
  rw [scanDigits_digit (by omega), scanDigits_digit (by omega), scanDigits_digit (by omega), scanDigits_digit (by omega), scanDigits_digit (by omega),
    scanDigits_digit (by omega), scanDigits_stop h]
  congr 1
  omega

theorem noDig_point (cs : List Char) : NoDig ('.' :: cs) := by
  intro c cs' h
  rw [← (List.cons.inj h).1]; decide

theorem scanPoint_text {q n : Nat} (hn : n < 10 ^ 6) (rest : List Char) (h : NoDig rest) : scanPoint (dec q ++ '.' :: six n ++ rest) = some ((q * 10 ^ 6 + n, 6), rest) := by
  rw [List.append_assoc, List.cons_append]
  unfold scanPoint
  rw [scanU_dec q _ (noDig_point _)]
  simp only [scanDigits_six hn rest h]
  congr 3
  simp [six]; omega

theorem lit_digit {a : Char} {as : List Char} {k : Nat} {cs : List Char} (h : digit k ≠ a) : lit (a :: as) (digit k :: cs) = none := by
  rw [lit, if_neg (Ne.symm h)]

/-- The magnitude part of `scanF`. -/
def scanMag (cs : List Char) : Option (Nat × List Char) :=
  match lit "inf".toList cs with
  | some rest => some (0x7f800000, rest)
  | none =>
    match lit "nan".toList cs with
    | some rest => some (0x7fc00000, rest)
    | none => (scanPoint cs).map fun r => (nearestFloat r.1.1 (10 ^ r.1.2), r.2)

theorem scanF_eq (cs : List Char) : scanF cs = (scanMag (scanSign cs).2).map fun r => (UInt32.ofNat (if (scanSign cs).1 then 2 ^ 31 + r.1 else r.1), r.2) := by
  unfold scanF scanMag
  generalize scanSign cs = p
  obtain ⟨neg, cs⟩ := p
  simp only
  cases lit "inf".toList cs with
  | some r => rfl
  | none =>
    cases lit "nan".toList cs with
    | some r => rfl
    | none => simp only [Option.map_map]; rfl

theorem scanMag_inf (rest : List Char) : scanMag ("inf".toList ++ rest) = some (0x7f800000, rest) := by
  have : lit "inf".toList ("inf".toList ++ rest) = some rest := rfl
  unfold scanMag
  rw [this]

theorem scanMag_nan (rest : List Char) : scanMag ("nan".toList ++ rest) = some (0x7fc00000, rest) := by
  have h1 : lit "inf".toList ("nan".toList ++ rest) = none := rfl
  have h2 : lit "nan".toList ("nan".toList ++ rest) = some rest := rfl
  unfold scanMag
  rw [h1]; simp only
  rw [h2]

theorem scanMag_point {q n : Nat} (hn : n < 10 ^ 6) (rest : List Char) (h : NoDig rest) :
    scanMag (dec q ++ '.' :: six n ++ rest) = some (nearestFloat (q * 10 ^ 6 + n) (10 ^ 6), rest) := by
  have hp := scanPoint_text (q := q) hn rest h
  obtain ⟨k, cs, hk, e⟩ := dec_head q
  obtain ⟨_, _, _, _, d1, d2⟩ := digit_spec hk
  have l1 : lit "inf".toList (dec q ++ '.' :: six n ++ rest) = none := by
    rw [e]; exact lit_digit d1
  have l2 : lit "nan".toList (dec q ++ '.' :: six n ++ rest) = none := by
    rw [e]; exact lit_digit d2
  unfold scanMag
  rw [l1]; simp only
  rw [l2]; simp only
  rw [hp, Option.map_some]

theorem scanMag_text (b : Nat) (rest : List Char) (h : NoDig rest) : scanMag (magText b ++ rest) = some (reloadMag b, rest) := by
  unfold magText reloadMag
  by_cases h1 : b < 0x7f800000
  · rw [if_pos h1, if_pos h1, scanMag_point (Nat.mod_lt _ (by norm_num)) rest h, Nat.div_add_mod', reread]
  · by_cases h2 : b = 0x7f800000
    · rw [if_neg h1, if_pos h2, if_neg h1, if_pos h2, scanMag_inf]
    · rw [if_neg h1, if_neg h2, if_neg h1, if_neg h2, scanMag_nan]

theorem scanSign_mag (b : Nat) (rest : List Char) : scanSign (magText b ++ rest) = (false, magText b ++ rest) := by
  unfold magText
  split_ifs with h1 h2
  · obtain ⟨k, cs, hk, e⟩ := dec_head (micro b / 10 ^ 6)
    rw [e]; exact scanSign_digit hk _
  · rfl
  · rfl

/-- What is read back of a `float`. -/
theorem scanF_printF (v : UInt32) (rest : List Char) (h : NoDig rest) : scanF (printF v ++ rest) = some (reloadF v, rest) := by
  rw [printF_eq, scanF_eq]
  unfold reloadF
  by_cases hs : v.toNat < 2 ^ 31
  · rw [if_pos hs, if_pos hs, List.nil_append, scanSign_mag]
    simp only [scanMag_text _ _ h, Option.map_some, Bool.false_eq_true, if_false]
  · rw [if_neg hs, if_neg hs, List.append_assoc, List.singleton_append, scanSign]
    simp only [scanMag_text _ _ h, Option.map_some, if_true]

theorem reloadMag_lt (b : Nat) : reloadMag b < 2 ^ 31 := by
  unfold reloadMag
  split_ifs with h1 h2
  · exact lt_trans (reread_near h1).1 (by norm_num)
  · norm_num
  · norm_num

theorem reloadF_toNat (v : UInt32) : (reloadF v).toNat = if v.toNat < 2 ^ 31 then reloadMag (v.toNat % 2 ^ 31) else 2 ^ 31 + reloadMag (v.toNat % 2 ^ 31) := by
  have := reloadMag_lt (v.toNat % 2 ^ 31)
  unfold reloadF
  rw [UInt32.toNat_ofNat']
  split_ifs <;> exact Nat.mod_eq_of_lt (by omega)

/-- The text of what was read back is the same text. -/
theorem printF_reloadF (v : UInt32) : printF (reloadF v) = printF v := by
  have hl := reloadMag_lt (v.toNat % 2 ^ 31)
  have hm : magText (reloadMag (v.toNat % 2 ^ 31)) = magText (v.toNat % 2 ^ 31) := by
    generalize v.toNat % 2 ^ 31 = b
    unfold magText reloadMag
    by_cases h1 : b < 0x7f800000
    · have := (reread_near h1).1
      simp only [if_pos h1, if_pos this, micro_reread h1]
    · by_cases h2 : b = 0x7f800000
      · simp [h2]
      · simp [h1, h2]
  have e := reloadF_toNat v
  rw [printF_eq, printF_eq, e]
  by_cases hs : v.toNat < 2 ^ 31
  · simp only [if_pos hs, if_pos hl, Nat.mod_eq_of_lt hl, hm]
  · have h2 : ¬ (2 ^ 31 + reloadMag (v.toNat % 2 ^ 31) < 2 ^ 31) := by omega
    have h3 : (2 ^ 31 + reloadMag (v.toNat % 2 ^ 31)) % 2 ^ 31 = reloadMag (v.toNat % 2 ^ 31) := by
      rw [Nat.add_mod_left]; exact Nat.mod_eq_of_lt hl
    simp only [if_neg hs, if_neg h2, h3, hm]

/-- Reading back a second time changes nothing. -/
theorem reloadF_idem (v : UInt32) : reloadF (reloadF v) = reloadF v := by
  have nd : NoDig [] := fun _ _ h => by cases h
  have a := scanF_printF (reloadF v) [] nd
  rw [printF_reloadF, scanF_printF v [] nd] at a
  simpa using a.symm

/-- A number below 16 of six decimals is what the float read from it prints. -/
theorem micro_nearest {n : Nat} (h : n < 16000000) : micro (nearestFloat n (10 ^ 6)) = n := by
  obtain ⟨_, h1, h2⟩ := nearest_small (n := n) (by
    rw [Nat.div_lt_iff_lt_mul (by omega), show (2 : Nat) ^ 153 * 1000000 = 16000000 * 2 ^ 149 by norm_num]
    exact Nat.mul_lt_mul_of_pos_right h (by positivity))
  rw [micro]
  refine roundDiv_near ?_ ?_
  · rw [show (10 : Nat) ^ 6 = 1000000 by norm_num] at *
    exact core_same1 (Nat.pow_pos (by omega)) pow_149_128 h1
  · rw [show (10 : Nat) ^ 6 = 1000000 by norm_num] at *
    exact core_same2 (Nat.pow_pos (by omega)) pow_149_128 h2

/-- From 16 on, the float read from a decimal number is at least 16. -/
theorem nearest_ge {n : Nat} (h : 16000000 ≤ n) : 0x41800000 ≤ nearestFloat n (10 ^ 6) := by
  rw [nearestFloat_eq]
  have hq : 2 ^ 153 ≤ n * 2 ^ 149 / 10 ^ 6 := by
    rw [Nat.le_div_iff_mul_le (by omega), show (2 : Nat) ^ 153 * 10 ^ 6 = 16000000 * 2 ^ 149 by norm_num]
    exact Nat.mul_le_mul_right _ h
  have hq0 : n * 2 ^ 149 / 10 ^ 6 ≠ 0 := by
    have : 0 < 2 ^ 153 := by positivity
    exact (lt_of_lt_of_le this hq).ne'
  have hl : 153 ≤ (n * 2 ^ 149 / 10 ^ 6).log2 := (Nat.le_log2 hq0).mpr hq
  have hE : 130 ≤ expo n (10 ^ 6) := by unfold expo; omega
  have hR : 2 ^ 23 ≤ roundDiv (n * 2 ^ 149) (10 ^ 6 * 2 ^ expo n (10 ^ 6)) := by
    have h1 : 2 ^ 23 ≤ n * 2 ^ 149 / (10 ^ 6 * 2 ^ expo n (10 ^ 6)) := by
      rw [← Nat.div_div_eq_div_mul, Nat.le_div_iff_mul_le (by positivity), ← pow_add, ← Nat.le_log2 hq0]
      unfold expo; omega
    unfold roundDiv
    simp only
    split_ifs <;> omega
  refine Nat.le_min.mpr ⟨?_, by norm_num⟩
  have := Nat.mul_le_mul_right (2 ^ 23) hE
  calc 0x41800000 = 130 * 2 ^ 23 + 2 ^ 23 := by norm_num
    _ ≤ _ := Nat.add_le_add this hR

/-- What is read from a number of six decimals is read back exactly. -/
theorem reloadMag_typed (n : Nat) : reloadMag (nearestFloat n (10 ^ 6)) = nearestFloat n (10 ^ 6) := by
  have hle : nearestFloat n (10 ^ 6) ≤ 0x7f800000 := by rw [nearestFloat_eq]; exact Nat.min_le_right _ _
  unfold reloadMag
  by_cases h1 : nearestFloat n (10 ^ 6) < 0x7f800000
  · rw [if_pos h1]
    rcases Nat.lt_or_ge n 16000000 with h | h
    · rw [reread, micro_nearest h]
    · exact reread_large h1 (nearest_ge h)
  · rw [if_neg h1, if_pos (Nat.le_antisymm hle (Nat.le_of_not_lt h1))]
    exact Nat.le_antisymm (Nat.le_of_not_lt h1) hle

end FastNoise.Editor
