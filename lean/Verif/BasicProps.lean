import Verif.Basic
import Verif.NumLemmas
import Verif.HashProps
import Mathlib.Analysis.SpecialFunctions.Trigonometric.Bounds
import Mathlib.Data.List.Induction
/-! # C24 (output range) and C37 (basic generators) -/
namespace FastNoise.Basic
open FastNoise.Hash FastNoise.Num

/-! ## C24 -/

/-- Specification: the minimum last set by the user, `-1` if never set. -/
def lastMin (ops : List (SetOp ℝ)) : ℝ := (ops.filterMap (fun | .min v => some v | .max _ => none)).getLastD (-1)
/-- Specification: the maximum last set by the user, `1` if never set. -/
def lastMax (ops : List (SetOp ℝ)) : ℝ := (ops.filterMap (fun | .max v => some v | .min _ => none)).getLastD 1

/-- The range fields after a history of setter calls. -/
noncomputable def rangeAfter (ops : List (SetOp ℝ)) : Range ℝ := ops.foldl Range.apply Range.init

theorem rangeAfter_spec (ops : List (SetOp ℝ)) :
    (rangeAfter ops).rangeMin = lastMin ops ∧ (rangeAfter ops).rangeMin + (rangeAfter ops).rangeScale = lastMax ops := by
  induction ops using List.reverseRecOn with
  | nil => constructor <;> norm_num [rangeAfter, Range.init, lastMin, lastMax]
  | append_singleton l op ih =>
    have e : rangeAfter (l ++ [op]) = (rangeAfter l).apply op := by simp [rangeAfter]
    rw [e]
    obtain ⟨h1, h2⟩ := ih
    cases op with
    | min v =>
      refine ⟨by simp [Range.apply, Range.setMin, lastMin, List.getLastD_eq_getLast?], ?_⟩
      have : lastMax (l ++ [.min v]) = lastMax l := by simp [lastMax]
      rw [this, ← h2]
      simp only [Range.apply, Range.setMin]; ring
    | max v =>
      refine ⟨?_, by simp [Range.apply, Range.setMax, lastMax, List.getLastD_eq_getLast?]⟩
      have : lastMin (l ++ [.max v]) = lastMin l := by simp [lastMin]
      rw [this, ← h1]
      simp [Range.apply, Range.setMax]

/-- **C24**.  After any history of `SetOutputMin`/`SetOutputMax` calls, a generator with native range [a, b] maps its native value
`v` affinely so that `a` goes to the last set minimum and `b` to the last set maximum; native values in range give outputs
between the two bounds. -/
theorem C24_output_range (ops : List (SetOp ℝ)) (a b : ℝ) (hab : a < b) :
    (rangeAfter ops).scaleOutput a a b = lastMin ops ∧
    (rangeAfter ops).scaleOutput b a b = lastMax ops ∧
    (∀ v, (rangeAfter ops).scaleOutput v a b = lastMin ops + (v - a) / (b - a) * (lastMax ops - lastMin ops)) ∧
    (∀ v, a ≤ v → v ≤ b → min (lastMin ops) (lastMax ops) ≤ (rangeAfter ops).scaleOutput v a b ∧
      (rangeAfter ops).scaleOutput v a b ≤ max (lastMin ops) (lastMax ops)) := by
  obtain ⟨h1, h2⟩ := rangeAfter_spec ops
  have hs : (rangeAfter ops).rangeScale = lastMax ops - lastMin ops := by rw [← h2, ← h1]; ring
  have hne : b - a ≠ 0 := by linarith
  have key : ∀ v, (rangeAfter ops).scaleOutput v a b = lastMin ops + (v - a) / (b - a) * (lastMax ops - lastMin ops) := by
    intro v
    unfold Range.scaleOutput fma
    rw [h1, hs]
    field_simp
    ring
  refine ⟨?_, ?_, key, ?_⟩
  · rw [key]; simp
  · rw [key, div_self hne]; ring
  · intro v hv1 hv2
    rw [key]
    have t0 : 0 ≤ (v - a) / (b - a) := div_nonneg (by linarith) (by linarith)
    have t1 : (v - a) / (b - a) ≤ 1 := (div_le_one (by linarith)).mpr (by linarith)
    have := lerp_mem (a := lastMin ops) (b := lastMax ops) (t := (v - a) / (b - a)) (lo := min (lastMin ops) (lastMax ops))
      (hi := max (lastMin ops) (lastMax ops)) ⟨min_le_left _ _, le_max_left _ _⟩ ⟨min_le_right _ _, le_max_right _ _⟩ t0 t1
    unfold lerp fma at this
    constructor <;> [linarith [this.1]; linarith [this.2]]

/-- **C24**, order independence: setting both bounds in either order gives the same state. -/
theorem C24_order_independent (r : Range ℝ) (lo hi : ℝ) : (r.setMin lo).setMax hi = (r.setMax hi).setMin lo := by
  unfold Range.setMin Range.setMax
  congr 1
  simp

theorem round_core (a e q r : Nat) (ha : a = 2 ^ e * q + r) (hr : r < 2 ^ e) (hq : q < 2 ^ 24) :
    let q' := if e = 0 then q else if r < 2 ^ e / 2 then q else if 2 ^ e / 2 < r then q + 1 else if q % 2 = 0 then q else q + 1
    q' ≤ 2 ^ 24 ∧ 2 * |((q' * 2 ^ e : Nat) : Int) - (a : Int)| ≤ 2 ^ e * (if e = 0 then 0 else 1) ∧
      (2 * |((q' * 2 ^ e : Nat) : Int) - (a : Int)| = 2 ^ e → q' % 2 = 0) := by
  subst ha
  intro q'
  by_cases he : e = 0
  · have hr0 : r = 0 := by subst he; simpa using hr
    have : q' = q := if_pos he
    rw [this, he, hr0]
    refine ⟨hq.le, by simp, by simp⟩
  · obtain ⟨h, hh⟩ : ∃ h : Nat, 2 ^ e = 2 * h := ⟨2 ^ (e - 1), by rw [← Nat.pow_succ']; congr 1; omega⟩
    have hz : (2 : Int) ^ e = 2 * (h : Int) := by exact_mod_cast congrArg Nat.cast hh
    have eq' : q' = if r < h then q else if h < r then q + 1 else if q % 2 = 0 then q else q + 1 := by
      simp only [q', if_neg he, hh]; rw [show 2 * h / 2 = h by omega]
    clear_value q'
    rw [if_neg he, mul_one, hz, hh]
    rw [hh] at hr
    have ek : ∀ d : Int, (q' : Int) = q + d → (((q' * (2 * h) : Nat) : Int)) - ((2 * h * q + r : Nat) : Int) = d * (2 * h) - r := by
      intro d hd; push_cast; rw [hd]; ring
    by_cases c1 : r < h
    · rw [if_pos c1] at eq'
      rw [ek 0 (by omega), abs_of_nonpos (by omega)]
      exact ⟨by omega, by omega, by omega⟩
    · rw [if_neg c1] at eq'
      by_cases c2 : h < r
      · rw [if_pos c2] at eq'
        rw [ek 1 (by omega), abs_of_nonneg (by omega)]
        exact ⟨by omega, by omega, by omega⟩
      · rw [if_neg c2] at eq'
        by_cases c3 : q % 2 = 0
        · rw [if_pos c3] at eq'
          rw [ek 0 (by omega), abs_of_nonpos (by omega)]
          exact ⟨by omega, by omega, fun _ => by omega⟩
        · rw [if_neg c3] at eq'
          rw [ek 1 (by omega), abs_of_nonneg (by omega)]
          exact ⟨by omega, by omega, fun _ => by omega⟩

/-- The arithmetic used in `C24_float_loses_max` is IEEE 754 rounding of integers to a 24 bit significand: the result is a multiple, by at most `2^24`, of the unit `2^e` of
its binade, at most half a unit away from the exact value (nothing at all when 24 bits suffice), and the even multiple when two are equally near. -/
theorem C24_rounding (n : Int) :
    let e := (n.natAbs.log2 + 1) - 24
    ∃ q : Nat, round24 n = n.sign * (q * 2 ^ e) ∧ q ≤ 2 ^ 24 ∧ 2 * |round24 n - n| ≤ 2 ^ e * (if e = 0 then 0 else 1) ∧
      (2 * |round24 n - n| = 2 ^ e → q % 2 = 0) := by
  intro e
  have hlt : n.natAbs < 2 ^ (n.natAbs.log2 + 1) := Nat.lt_log2_self
  have ha : (n : Int) = n.sign * (n.natAbs : Int) := (Int.sign_mul_natAbs n).symm
  have hd : n.natAbs >>> e = n.natAbs / 2 ^ e := Nat.shiftRight_eq_div_pow _ _
  have hm := Nat.div_add_mod n.natAbs (2 ^ e)
  have hml := Nat.mod_lt n.natAbs (Nat.two_pow_pos e)
  have hq : n.natAbs / 2 ^ e < 2 ^ 24 := by
    rw [Nat.div_lt_iff_lt_mul (Nat.two_pow_pos e), ← Nat.pow_add]
    exact lt_of_lt_of_le hlt (Nat.pow_le_pow_right (by omega) (by omega))
  have hrem : n.natAbs - (n.natAbs >>> e) <<< e = n.natAbs % 2 ^ e := by
    rw [hd, Nat.shiftLeft_eq, Nat.mul_comm]; omega
  have herr : ∀ q : Nat, round24 n = n.sign * (q * 2 ^ e) → |round24 n - n| = |n.sign| * |((q * 2 ^ e : Nat) : Int) - (n.natAbs : Int)| := by
    intro q h
    rw [h]
    conv_lhs => rw [show n.sign * ((q : Int) * 2 ^ e) - n = n.sign * ((q : Int) * 2 ^ e) - n.sign * (n.natAbs : Int) from by rw [← ha]]
    rw [← mul_sub, abs_mul]; push_cast; rfl
  have hsign : |n.sign| = 0 ∨ |n.sign| = 1 := by
    rcases lt_trichotomy n 0 with h | h | h
    · right; rw [Int.sign_eq_neg_one_of_neg h]; rfl
    · left; rw [h]; rfl
    · right; rw [Int.sign_eq_one_of_pos h]; rfl
  have main : ∃ q : Nat, round24 n = n.sign * (q * 2 ^ e) ∧ q ≤ 2 ^ 24 ∧ 2 * |((q * 2 ^ e : Nat) : Int) - (n.natAbs : Int)| ≤ 2 ^ e * (if e = 0 then 0 else 1) ∧
      (2 * |((q * 2 ^ e : Nat) : Int) - (n.natAbs : Int)| = 2 ^ e → q % 2 = 0) := by
    have hr : round24 n = n.sign * (((if e = 0 then n.natAbs / 2 ^ e else if n.natAbs % 2 ^ e < 2 ^ e / 2 then n.natAbs / 2 ^ e
        else if 2 ^ e / 2 < n.natAbs % 2 ^ e then n.natAbs / 2 ^ e + 1 else if (n.natAbs / 2 ^ e) % 2 = 0 then n.natAbs / 2 ^ e else n.natAbs / 2 ^ e + 1 : Nat) : Int) * 2 ^ e) := by
      unfold round24
      simp only []
      change n.sign * (((if e = 0 then n.natAbs >>> e else if n.natAbs - (n.natAbs >>> e) <<< e < 2 ^ e / 2 then n.natAbs >>> e
        else if 2 ^ e / 2 < n.natAbs - (n.natAbs >>> e) <<< e then n.natAbs >>> e + 1 else if (n.natAbs >>> e) % 2 = 0 then n.natAbs >>> e else n.natAbs >>> e + 1) <<< e : Nat) : Int) = _
      rw [hrem, hd, Nat.shiftLeft_eq]
      push_cast
      rfl
    exact ⟨_, hr, round_core _ _ _ _ hm.symm hml hq⟩
  obtain ⟨q, h1, h2, h3, h4⟩ := main
  refine ⟨q, h1, h2, ?_, ?_⟩
  · rw [herr q h1]
    rcases hsign with h | h
    · rw [h, zero_mul, mul_zero]; positivity
    · rw [h, one_mul]; exact h3
  · rw [herr q h1]
    rcases hsign with h | h
    · rw [h, zero_mul, mul_zero]; intro h'; exact absurd h'.symm (by positivity)
    · rw [h, one_mul]; exact h4
/-- 2^24 + 1 is halfway between two floats, 2^24 + 3 as well; the even significand wins. -/
example : round24 (2 ^ 24 + 1) = 2 ^ 24 ∧ round24 (2 ^ 24 + 3) = 2 ^ 24 + 4 ∧ round24 (-(2 ^ 25 + 3)) = -(2 ^ 25 + 4) ∧ round24 12345 = 12345 := by decide +kernel

/-- Where C24 fails in `float`: the setter keeps the maximum only as `min + scale`, so with 24 bit rounding the history
`SetOutputMin( 2^30 ); SetOutputMin( 0 )`, never touching the maximum 1, leaves the range [0, 0]. -/
theorem C24_float_loses_max :
    let r := ([.min ⟨2 ^ 30⟩, .min ⟨0⟩] : List (SetOp F24)).foldl Range.apply ⟨⟨-1⟩, ⟨2⟩⟩
    r.rangeMin = ⟨0⟩ ∧ r.rangeMin + r.rangeScale = ⟨0⟩ := by decide +kernel

/-- Non-vacuity and a sanity check of the specification. -/
example : lastMin [.min 3, .max 5, .min 4] = 4 ∧ lastMax [.min 3, .max 5, .min 4] = 5 ∧ (-1 : ℝ) < 1 := by
  norm_num [lastMin, lastMax]

/-! ## C37 -/

/-- **C37**, Constant ignores seed and position. -/
theorem C37_constant (v : ℝ) (s t : I32) (p q : Pos) : constant v s p = constant v t q ∧ constant v s p = v := ⟨rfl, rfl⟩

/-- **C37**, White: the output depends on `seed + offset` and on the bit patterns only (changing the seed by the offset is the
same) and lies in the output range. -/
theorem C37_white (ops : List (SetOp ℝ)) (off seed : I32) (bits : List I32) :
    white (rangeAfter ops) off seed bits = white (rangeAfter ops) 0 (seed + off) bits ∧
    min (lastMin ops) (lastMax ops) ≤ white (rangeAfter ops) off seed bits ∧
    white (rangeAfter ops) off seed bits ≤ max (lastMin ops) (lastMax ops) := by
  refine ⟨by simp [white], ?_⟩
  unfold white
  refine (C24_output_range ops _ _ (by norm_num [valueBounds])).2.2.2 _ ?_ ?_
  · have := BitVec.le_toInt (valueCoord (seed + off) (List.zipWith whiteAxis bits primes))
    have h : ((-2 ^ 31 : ℤ) : ℝ) ≤ ((valueCoord (seed + off) (List.zipWith whiteAxis bits primes)).toInt : ℝ) := by
      exact_mod_cast this
    norm_num [valueBounds] at h ⊢
    exact h
  · have := BitVec.toInt_lt (x := valueCoord (seed + off) (List.zipWith whiteAxis bits primes))
    have h : ((valueCoord (seed + off) (List.zipWith whiteAxis bits primes)).toInt : ℝ) ≤ ((2 ^ 31 : ℤ) : ℝ) := by
      exact_mod_cast this.le
    norm_num [valueBounds] at h ⊢
    exact h

/-- **C37**, White: complementing one coordinate's bits (1.0 ↔ -3.9999998) collides, and those are the only collisions of the
per-axis hash. -/
theorem C37_white_axis (a b prime : I32) (hp : ∃ q, prime * q = 1) :
    whiteAxis a prime = whiteAxis b prime ↔ a = b ∨ a = ~~~b := by
  obtain ⟨q, hq⟩ := hp
  have inj : whiteAxis a prime = whiteAxis b prime ↔ a ^^^ a.sshiftRight 16 = b ^^^ b.sshiftRight 16 :=
    ⟨fun h => odd_mul_inj hq h, fun h => by unfold whiteAxis; rw [h]⟩
  rw [inj]
  constructor
  · intro h
    have hbit : ∀ i, i < 32 → (a ^^^ a.sshiftRight 16).getLsbD i = (b ^^^ b.sshiftRight 16).getLsbD i := fun i _ => by rw [h]
    have hhi : ∀ i, 16 ≤ i → i < 32 → (a.getLsbD i ^^ a.msb) = (b.getLsbD i ^^ b.msb) := by
      intro i h1 h2
      have := hbit i h2
      simpa [BitVec.getLsbD_xor, BitVec.getLsbD_sshiftRight, show ¬ 32 ≤ i by omega, show ¬ 16 + i < 32 by omega] using this
    have hlo : ∀ i, i < 16 → (a.getLsbD i ^^ a.getLsbD (16 + i)) = (b.getLsbD i ^^ b.getLsbD (16 + i)) := by
      intro i h1
      have := hbit i (by omega)
      simpa [BitVec.getLsbD_xor, BitVec.getLsbD_sshiftRight, show ¬ 32 ≤ i by omega, show 16 + i < 32 by omega] using this
    by_cases hs : a.msb = b.msb
    · left
      apply BitVec.eq_of_getLsbD_eq
      intro i hi
      have hh : ∀ j, 16 ≤ j → j < 32 → a.getLsbD j = b.getLsbD j := by
        intro j h1 h2
        have := hhi j h1 h2
        rw [hs] at this
        revert this
        cases a.getLsbD j <;> cases b.getLsbD j <;> cases b.msb <;> simp
      by_cases h16 : i < 16
      · have := hlo i h16
        rw [hh (16 + i) (by omega) (by omega)] at this
        revert this
        cases a.getLsbD i <;> cases b.getLsbD i <;> cases b.getLsbD (16 + i) <;> simp
      · exact hh i (by omega) hi
    · right
      have hs' : a.msb = !b.msb := by revert hs; cases a.msb <;> cases b.msb <;> simp
      apply BitVec.eq_of_getLsbD_eq
      intro i hi
      have hh : ∀ j, 16 ≤ j → j < 32 → a.getLsbD j = !b.getLsbD j := by
        intro j h1 h2
        have := hhi j h1 h2
        rw [hs'] at this
        revert this
        cases a.getLsbD j <;> cases b.getLsbD j <;> cases b.msb <;> simp
      rw [BitVec.getLsbD_not]
      simp only [hi, decide_true, Bool.true_and]
      by_cases h16 : i < 16
      · have := hlo i h16
        rw [hh (16 + i) (by omega) (by omega)] at this
        revert this
        cases a.getLsbD i <;> cases b.getLsbD i <;> cases b.getLsbD (16 + i) <;> simp
      · exact hh i (by omega) hi
  · rintro (h | h)
    · rw [h]
    · rw [h]
      apply BitVec.eq_of_getLsbD_eq
      intro i hi
      simp only [BitVec.getLsbD_xor, BitVec.getLsbD_sshiftRight, BitVec.getLsbD_not, BitVec.msb_not]
      by_cases h16 : 16 + i < 32
      · simp [hi, h16, show ¬ 32 ≤ i by omega]
      · simp [hi, h16, show ¬ 32 ≤ i by omega]

/-- The primes of White are invertible modulo 2^32, so `C37_white_axis` applies to each axis. -/
example : ∀ p ∈ primes, ∃ q, p * q = 1 := primes_invertible

/-- **C37**, White: hence the output does not change when one coordinate's bit pattern is complemented. -/
theorem C37_white_complement (r : Range ℝ) (off seed : I32) (bits : List I32) (i : Nat) (hi : i < bits.length) :
    white r off seed (bits.set i (~~~ bits[i])) = white r off seed bits := by
  have h : List.zipWith whiteAxis (bits.set i (~~~ bits[i])) primes = List.zipWith whiteAxis bits primes := by
    apply List.ext_getElem
    · simp
    · intro j h1 h2
      rw [List.getElem_zipWith, List.getElem_zipWith, List.getElem_set]
      split
      · rename_i e
        subst e
        exact (C37_white_axis _ _ _ (primes_invertible _ (List.getElem_mem _))).mpr (Or.inr rfl)
      · rfl
  unfold white
  rw [h]

example : white ⟨-1, 2⟩ 0 7 [0x3f800000, 5] = white ⟨-1, 2⟩ 0 7 [0xC07FFFFF, 5] := by
  have e : ([0x3f800000, 5] : List I32).set 0 (~~~ 0x3f800000) = [0xC07FFFFF, 5] := by decide
  rw [← e]
  exact (C37_white_complement ⟨-1, 2⟩ 0 7 [0x3f800000, 5] 0 (by decide)).symm

/-! ### Checkerboard -/

/-- Specification: the coordinates lie in the range of `int` after scaling. -/
def InRange (freq : ℝ) (pos : Pos) : Prop := ∀ p ∈ pos, -2 ^ 31 ≤ roundEven (p * freq) ∧ roundEven (p * freq) < 2 ^ 31

/-- Specification: the sum of the cell numbers; cell `k` of an axis is around `k * scale`. -/
noncomputable def cellSum (freq : ℝ) (pos : Pos) : ℤ := (pos.map (fun p => roundEven (p * freq))).sum

theorem castBit30_eq (v : I32) : castBit30 v = if v.getLsbD 0 then 2 else 0 := by
  unfold castBit30
  have : v &&& 1 = BitVec.setWidth 32 (BitVec.ofBool (v.getLsbD 0)) := BitVec.and_one_eq_setWidth_ofBool_getLsbD
  rw [this]
  cases v.getLsbD 0 <;> simp

theorem foldXor_lsb (freq : ℝ) (pos : Pos) (h : InRange freq pos) :
    (foldXor ((scalePositions freq pos).map convertI32)).getLsbD 0 = decide (cellSum freq pos % 2 = 1) := by
  have one : ∀ p, -2 ^ 31 ≤ roundEven (p * freq) ∧ roundEven (p * freq) < 2 ^ 31 →
      (convertI32 (p * freq)).getLsbD 0 = decide (roundEven (p * freq) % 2 = 1) := by
    intro p hp
    rw [convertI32, if_pos hp, ← BitVec.testBit_toNat, Nat.testBit_zero, BitVec.toNat_ofInt]
    exact decide_eq_decide.mpr (by simp only [Nat.reducePow, Nat.cast_ofNat]; omega)
  have tail : ∀ a l, (foldXor (a :: l)).getLsbD 0 = (a.getLsbD 0 ^^ (foldXor l).getLsbD 0) := by
    intro a l
    cases l with
    | nil => simp [foldXor]
    | cons b u => rw [foldXor, BitVec.getLsbD_xor]; simp
  induction pos with
  | nil => simp [scalePositions, foldXor, cellSum]
  | cons a t ih =>
    have h1 := one a (h a (by simp))
    have h2 := ih (fun p hp => h p (by simp [hp]))
    simp only [scalePositions, List.map_cons] at h2 ⊢
    rw [tail, h1, h2]
    simp only [cellSum, List.map_cons, List.sum_cons]
    have par : ∀ r S : ℤ, (decide (r % 2 = 1) ^^ decide (S % 2 = 1)) = decide ((r + S) % 2 = 1) := by
      intro r S
      rcases Int.emod_two_eq_zero_or_one r with hr | hr <;> rcases Int.emod_two_eq_zero_or_one S with hS | hS <;>
        simp [hr, hS, Int.add_emod]
    exact par _ _

/-- **C37**, Checkerboard: two values only, chosen by the parity of the sum of the cell numbers. -/
theorem C37_checkerboard (ops : List (SetOp ℝ)) (freq : ℝ) (seed : I32) (pos : Pos) (h : InRange freq pos) :
    checkerboard (rangeAfter ops) freq seed pos = if cellSum freq pos % 2 = 1 then lastMax ops else lastMin ops := by
  obtain ⟨e0, e2, _⟩ := C24_output_range ops 0 2 (by norm_num)
  unfold checkerboard
  rw [castBit30_eq, foldXor_lsb freq pos h]
  by_cases hc : cellSum freq pos % 2 = 1 <;> simp [hc, e0, e2]

/-- **C37**, Checkerboard alternates: moving by one feature scale along one axis exchanges the two values (away from ties of the
rounding), moving by two feature scales gives the same value. -/
theorem C37_checkerboard_alternates (ops : List (SetOp ℝ)) (scale : ℝ) (hs : scale ≠ 0) (seed : I32) (l r : Pos) (x : ℝ)
    (h0 : InRange (frequency scale) (l ++ x :: r)) (h1 : InRange (frequency scale) (l ++ (x + scale) :: r))
    (h2 : InRange (frequency scale) (l ++ (x + 2 * scale) :: r)) (tie : x / scale - ⌊x / scale⌋ ≠ 1 / 2) :
    let f := fun y => checkerboard (rangeAfter ops) (frequency scale) seed (l ++ y :: r)
    (f x = lastMin ops ∧ f (x + scale) = lastMax ops ∨ f x = lastMax ops ∧ f (x + scale) = lastMin ops) ∧
    f (x + 2 * scale) = f x := by
  intro f
  have fe : ∀ y, InRange (frequency scale) (l ++ y :: r) →
      f y = if cellSum (frequency scale) (l ++ y :: r) % 2 = 1 then lastMax ops else lastMin ops :=
    fun y hy => C37_checkerboard ops _ seed _ hy
  rw [fe _ h0, fe _ h1, fe _ h2]
  have c1 : cellSum (frequency scale) (l ++ (x + scale) :: r) = cellSum (frequency scale) (l ++ x :: r) + 1 := by
    have : roundEven ((x + scale) * frequency scale) = roundEven (x * frequency scale) + 1 := by
      have e : (x + scale) * frequency scale = x / scale + (1 : ℤ) := by unfold frequency; field_simp; simp
      have e' : x * frequency scale = x / scale := by unfold frequency; field_simp
      rw [e, e', roundEven_add_int _ _ tie]
    simp [cellSum, this]; ring
  have c2 : cellSum (frequency scale) (l ++ (x + 2 * scale) :: r) = cellSum (frequency scale) (l ++ x :: r) + 2 := by
    have : roundEven ((x + 2 * scale) * frequency scale) = roundEven (x * frequency scale) + 2 := by
      have e : (x + 2 * scale) * frequency scale = x / scale + ((2 * 1 : ℤ) : ℝ) := by unfold frequency; field_simp; push_cast; ring
      have e' : x * frequency scale = x / scale := by unfold frequency; field_simp
      rw [e, e', roundEven_add_even]; norm_num
    simp [cellSum, this]; ring
  rw [c1, c2]
  generalize cellSum (frequency scale) (l ++ x :: r) = S
  rcases Int.emod_two_eq_zero_or_one S with h | h
  · have h1 : (S + 1) % 2 = 1 := by omega
    simp [h, h1]
  · have h1 : (S + 1) % 2 = 0 := by omega
    simp [h, h1]

/-- The tie hypothesis is needed: with scale 1 the positions 0.5 and 1.5 are one cell apart but get the same value. -/
theorem C37_checkerboard_tie (ops : List (SetOp ℝ)) (seed : I32) :
    checkerboard (rangeAfter ops) (frequency 1) seed [1 / 2, 0] = checkerboard (rangeAfter ops) (frequency 1) seed [1 / 2 + 1, 0] := by
  have r0 : roundEven (0 * 1) = 0 := by simpa using roundEven_int 0
  have r1 : roundEven (2⁻¹ * 1) = 0 := by
    have : ⌊(2⁻¹ * 1 : ℝ)⌋ = 0 := Int.floor_eq_iff.mpr (by norm_num)
    unfold roundEven; rw [this]; norm_num
  have r2 : roundEven ((2⁻¹ + 1) * 1) = 2 := by
    have : ⌊((2⁻¹ + 1) * 1 : ℝ)⌋ = 1 := Int.floor_eq_iff.mpr (by norm_num)
    unfold roundEven; rw [this]; norm_num
  rw [C37_checkerboard, C37_checkerboard]
  · simp [cellSum, frequency] at *
    simp [r0, r1, r2]
  · intro p hp
    simp [frequency] at hp ⊢
    rcases hp with rfl | rfl
    · simp at r2; rw [r2]; omega
    · simp at r0; rw [r0]; omega
  · intro p hp
    simp [frequency] at hp ⊢
    rcases hp with rfl | rfl
    · simp at r1; rw [r1]; omega
    · simp at r0; rw [r0]; omega

/-- Non-vacuity of the hypotheses of `C37_checkerboard_alternates`. -/
example : InRange (frequency 2) [0, 2] ∧ (0 : ℝ) / 2 - ⌊(0 : ℝ) / 2⌋ ≠ 1 / 2 := by
  constructor
  · intro p hp
    simp at hp
    rcases hp with rfl | rfl
    · have : roundEven (0 * frequency 2) = 0 := by rw [zero_mul]; simpa using roundEven_int 0
      rw [this]; omega
    · have : roundEven (2 * frequency 2) = 1 := by
        have e : (2 : ℝ) * frequency 2 = ((1 : ℤ) : ℝ) := by norm_num [frequency]
        rw [e, roundEven_int]
      rw [this]; omega
  · norm_num

/-! ### SineWave -/

theorem foldMul_eq (f : ℝ → ℝ) (pos : Pos) : foldMul f pos = (pos.map f).prod := by
  induction pos with
  | nil => rfl
  | cons a t ih =>
    cases t with
    | nil => simp [foldMul]
    | cons b u => rw [foldMul, ih]; simp; simp

/-- **C37**, SineWave: the product of the sines of the scaled coordinates, in the output range, with period `2π * scale` along every axis. -/
theorem C37_sineWave (ops : List (SetOp ℝ)) (scale : ℝ) (hs : scale ≠ 0) (seed : I32) (pos : Pos) :
    (rangeAfter [] |>.scaleOutput (pos.map (fun p => Real.sin (p / scale))).prod (-1) 1) = (pos.map (fun p => Real.sin (p / scale))).prod ∧
    sineWave (rangeAfter ops) (frequency scale) seed pos =
      lastMin ops + ((pos.map (fun p => Real.sin (p / scale))).prod + 1) / 2 * (lastMax ops - lastMin ops) ∧
    min (lastMin ops) (lastMax ops) ≤ sineWave (rangeAfter ops) (frequency scale) seed pos ∧
    sineWave (rangeAfter ops) (frequency scale) seed pos ≤ max (lastMin ops) (lastMax ops) ∧
    (∀ l x r, pos = l ++ x :: r →
      sineWave (rangeAfter ops) (frequency scale) seed (l ++ (x + 2 * Real.pi * scale) :: r) =
      sineWave (rangeAfter ops) (frequency scale) seed pos) := by
  have fm : ∀ q : Pos, foldMul Real.sin (scalePositions (frequency scale) q) = (q.map (fun p => Real.sin (p / scale))).prod := by
    intro q
    rw [foldMul_eq, scalePositions, List.map_map]
    congr 1
    apply List.map_congr_left
    intro p _
    simp [frequency, div_eq_mul_inv]
  have bound : ∀ q : Pos, |(q.map (fun p => Real.sin (p / scale))).prod| ≤ 1 := by
    intro q
    induction q with
    | nil => simp
    | cons a t ih =>
      rw [List.map_cons, List.prod_cons, abs_mul]
      have := Real.abs_sin_le_one (a / scale)
      calc _ ≤ 1 * 1 := mul_le_mul this ih (abs_nonneg _) (by norm_num)
        _ = 1 := by norm_num
  obtain ⟨_, _, aff, mem⟩ := C24_output_range ops (-1) 1 (by norm_num)
  obtain ⟨_, _, aff0, _⟩ := C24_output_range [] (-1) 1 (by norm_num)
  have hb := abs_le.mp (bound pos)
  have m := mem _ hb.1 hb.2
  refine ⟨?_, ?_, ?_, ?_, ?_⟩
  · rw [aff0]; norm_num [lastMin, lastMax]
  · unfold sineWave; rw [fm, aff]; norm_num
  · unfold sineWave; rw [fm]; exact m.1
  · unfold sineWave; rw [fm]; exact m.2
  · rintro l x r rfl
    unfold sineWave
    rw [fm, fm]
    have : Real.sin ((x + 2 * Real.pi * scale) / scale) = Real.sin (x / scale) := by
      rw [add_div, mul_div_assoc, div_self hs, mul_one, Real.sin_add_two_pi]
    simp [this]

/-! ### Gradient and DistanceToPoint -/

theorem gradientLoop_eq (offset : Nat → Src) (mult : Nat → ℝ) (seed : I32) (full : Pos) (i : Nat) (pos : Pos) (r : ℝ) :
    gradientLoop offset mult seed full i pos r = r + (pos.mapIdx (fun j p => (p + offset (i + j) seed full) * mult (i + j))).sum := by
  induction pos generalizing i r with
  | nil => simp [gradientLoop]
  | cons p ps ih =>
    rw [gradientLoop, ih]
    simp [fma, List.mapIdx_cons, Nat.add_assoc, Nat.add_comm 1]
    ring

/-- **C37**, Gradient: the sum over the axes of (input + offset) * multiplier; every offset source is evaluated with the caller's seed at the
caller's position. -/
theorem C37_gradient (offset : Nat → Src) (mult : Nat → ℝ) (seed : I32) (pos : Pos) :
    gradient offset mult seed pos = (pos.mapIdx (fun i p => (p + offset i seed pos) * mult i)).sum := by
  unfold gradient
  rw [gradientLoop_eq]
  simp

theorem subPoint_eq (point : Nat → Src) (seed : I32) (full : Pos) (i : Nat) (pos : Pos) :
    subPoint point seed full i pos = pos.mapIdx (fun j p => p - point (i + j) seed full) := by
  induction pos generalizing i with
  | nil => simp [subPoint]
  | cons p ps ih => rw [subPoint, ih]; simp [List.mapIdx_cons, Nat.add_assoc, Nat.add_comm 1]

/-- Specification of the distance functions of Generator.h:40-48; `P` is the Minkowski exponent. -/
noncomputable def distSpec (P : ℝ) (d : Pos) : DistFn → ℝ
  | .euclidean => √ (d.map (fun p => p ^ 2)).sum
  | .euclideanSquared => (d.map (fun p => p ^ 2)).sum
  | .manhattan => (d.map (fun p => |p|)).sum
  | .hybrid => (d.map (fun p => p ^ 2)).sum + (d.map (fun p => |p|)).sum
  | .maxAxis => (d.map (fun p => |p|)).foldl max 0
  | .minkowski => (d.map (fun p => |p| ^ P)).sum ^ (1 / P)

theorem sum_map_sq_nonneg (d : Pos) : 0 ≤ (d.map (fun p => p ^ 2)).sum := by
  induction d with
  | nil => simp
  | cons a t ih => simp; positivity

theorem calcDistance_eq (relaxed : Bool) (fn : DistFn) (mp : Src) (seed : I32) (x : ℝ) (r : Pos) :
    calcDistance relaxed true fn mp seed x r = distSpec (mp seed (x :: r)) (x :: r) fn := by
  cases fn with
  | euclidean => simp only [calcDistance, if_true, distSpec]; rw [sumSq_eq, fastLengthSqrt_eq _ _ (sum_map_sq_nonneg _)]
  | euclideanSquared => simp only [calcDistance, distSpec]; rw [sumSq_eq]
  | manhattan => simp only [calcDistance, distSpec]; rw [foldPlus_eq]; simp
  | hybrid =>
    simp only [calcDistance, distSpec]
    rw [hybrid_fold]
    have : ∀ l : Pos, (l.map (fun p => p ^ 2 + |p|)).sum = (l.map (fun p => p ^ 2)).sum + (l.map (fun p => |p|)).sum := by
      intro l
      induction l with
      | nil => simp
      | cons a t ih => simp [ih]; ring
    rw [this]
    simp [fma]; ring
  | maxAxis =>
    simp only [calcDistance, distSpec, List.map_cons, List.foldl_cons, List.foldl_map]
    rw [max_eq_right (abs_nonneg x)]
    congr 1
    funext m p
    exact max_comm _ _
  | minkowski => simp only [calcDistance, distSpec]; rw [foldPlus_eq]; simp

/-- **C37**, DistanceToPoint: the chosen metric of position minus point, the point sources being evaluated with the caller's seed at the caller's
position; the Minkowski exponent is evaluated at the relative position (not at the caller's position). -/
theorem C37_distanceToPoint (relaxed : Bool) (fn : DistFn) (mp : Src) (point : Nat → Src) (seed : I32) (pos : Pos) (h : pos ≠ []) :
    let d := pos.mapIdx (fun i p => p - point i seed pos)
    distanceToPoint relaxed fn mp point seed pos = distSpec (mp seed d) d fn := by
  intro d
  have e : subPoint point seed pos 0 pos = d := by rw [subPoint_eq]; simp [d]
  unfold distanceToPoint
  rw [e]
  have hd : d ≠ [] := by simp [d, h]
  cases hh : d with
  | nil => exact absurd hh hd
  | cons x r => exact calcDistance_eq relaxed fn mp seed x r

/-- **C37**, DistanceToPoint with constant point: never negative, and zero exactly at the point (for every metric with positive P). -/
theorem C37_distance_zero (P : ℝ) (hP : 0 < P) (d : Pos) (fn : DistFn) :
    0 ≤ distSpec P d fn ∧ (distSpec P d fn = 0 ↔ ∀ p ∈ d, p = 0) := by
  have sumZero : ∀ (f : ℝ → ℝ), (∀ p, 0 ≤ f p) → (∀ p, f p = 0 ↔ p = 0) →
      0 ≤ (d.map f).sum ∧ ((d.map f).sum = 0 ↔ ∀ p ∈ d, p = 0) := by
    intro f h1 h2
    induction d with
    | nil => simp
    | cons a t ih =>
      obtain ⟨i1, i2⟩ := ih
      simp only [List.map_cons, List.sum_cons, List.forall_mem_cons]
      have := h1 a
      refine ⟨by linarith, ?_⟩
      rw [← i2, ← h2 a]
      constructor
      · intro h; constructor <;> linarith
      · rintro ⟨h, h'⟩; linarith
  have sq := sumZero (fun p => p ^ 2) (fun p => sq_nonneg p) (fun p => by simp)
  have ab := sumZero (fun p => |p|) (fun p => abs_nonneg p) (fun p => abs_eq_zero)
  cases fn with
  | euclidean => exact ⟨Real.sqrt_nonneg _, by rw [distSpec, Real.sqrt_eq_zero sq.1]; exact sq.2⟩
  | euclideanSquared => exact sq
  | manhattan => exact ab
  | hybrid =>
    unfold distSpec
    refine ⟨by linarith [sq.1, ab.1], ?_⟩
    rw [← sq.2]
    constructor
    · intro h; linarith [sq.1, ab.1]
    · intro h; rw [h, (ab.2.mpr (sq.2.mp h))]; simp
  | maxAxis =>
    unfold distSpec
    have key : ∀ (l : List ℝ) (m b : ℝ), l.foldl max m ≤ b ↔ m ≤ b ∧ ∀ p ∈ l, p ≤ b := by
      intro l
      induction l with
      | nil => simp
      | cons a t ih => intro m b; rw [List.foldl_cons, ih]; simp; tauto
    have h0 : 0 ≤ (d.map (fun p => |p|)).foldl max 0 := ((key _ 0 _).mp le_rfl).1
    refine ⟨h0, ?_⟩
    constructor
    · intro h p hp
      have := ((key _ 0 _).mp h.le).2 |p| (List.mem_map_of_mem hp)
      exact abs_eq_zero.mp (le_antisymm this (abs_nonneg p))
    · intro h
      refine le_antisymm ((key _ 0 _).mpr ⟨le_rfl, ?_⟩) h0
      intro q hq
      obtain ⟨p, hp, rfl⟩ := List.mem_map.mp hq
      rw [h p hp]; simp
  | minkowski =>
    have mk := sumZero (fun p => |p| ^ P) (fun p => Real.rpow_nonneg (abs_nonneg p) P)
      (fun p => by rw [Real.rpow_eq_zero (abs_nonneg p) hP.ne', abs_eq_zero])
    refine ⟨Real.rpow_nonneg mk.1 _, ?_⟩
    rw [distSpec, Real.rpow_eq_zero mk.1 (by positivity)]
    exact mk.2

/-- Non-vacuity: a 2D point at distance 5. -/
example : distanceToPoint false .euclidean (Src.const 2) (fun _ => Src.const 1) 0 [4, 5] = 5 := by
  rw [C37_distanceToPoint _ _ _ _ _ _ (by simp)]
  simp only [List.mapIdx_cons, List.mapIdx_nil, distSpec, Src.const]
  norm_num
  rw [show (25 : ℝ) = 5 ^ 2 by norm_num]
  exact Real.sqrt_sq (by norm_num)

end FastNoise.Basic
