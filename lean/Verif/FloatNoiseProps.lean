import Verif.FloatErrLemmas
import Verif.LatticeProps
/-!
# C58: Value, White and Checkerboard in binary32 arithmetic

C36 and C33 speak of exact arithmetic.  Here every operation rounds to binary32, with or without fused multiply-add (`Level`), and positions, scales and seeds are arbitrary.
-/
namespace FastNoise.F32
open FastNoise.Hash FastNoise.Num FastNoise.Basic FastNoise.Lattice

noncomputable section

/-! ## The model unfolds to the code -/

/-- Value.inl:7-27 -/
theorem valueF_2D (L : Level) (seed : I32) (x y : ℝ) :
    let x0 := convertI32 (⌊x⌋ : ℤ) * primeX
    let y0 := convertI32 (⌊y⌋ : ℤ) * primeY
    let x1 := x0 + primeX
    let y1 := y0 + primeY
    let xs := interpHermite L (sub x (⌊x⌋ : ℤ))
    let ys := interpHermite L (sub y (⌊y⌋ : ℤ))
    let v := fun a b => valueCoordF seed [a, b]
    valueRaw L seed [x, y] = lerp L (lerp L (v x0 y0) (v x1 y0) xs) (lerp L (v x0 y1) (v x1 y1) xs) ys := rfl

/-! ## Specification -/

/-- The effect of one setter call, in binary32. -/
def applyF (r : Range ℝ) : SetOp ℝ → Range ℝ
  | .min v => setMin r v
  | .max v => setMax r v

/-- The range fields after a history of setter calls, in binary32. -/
def rangeAfterF (ops : List (SetOp ℝ)) : Range ℝ := ops.foldl applyF Range.init

/-- The argument of a setter call. -/
def argOf : SetOp ℝ → ℝ
  | .min v => v
  | .max v => v

/-- Every limit the user ever sets is a multiple of `2^e`, of at most `2^22` units, and so are the defaults -1 and 1: for instance integers up to four
million (`e = 0`), quarters up to a million (`e = -2`). -/
def OnGrid (e : ℤ) (ops : List (SetOp ℝ)) : Prop := -22 ≤ e ∧ e ≤ 0 ∧ ∀ op ∈ ops, ∃ n : ℤ, |n| ≤ 2 ^ 22 ∧ argOf op = n * 2 ^ e

/-! ## Lemmas on the setters -/

theorem grid_rep {e n : ℤ} (he : -149 ≤ e) (hn : |n| ≤ 2 ^ 24) : Rep (n * 2 ^ e) := ⟨n, e, hn, he, rfl⟩

theorem lastMin_grid {e : ℤ} {ops : List (SetOp ℝ)} (h : OnGrid e ops) : ∃ n : ℤ, |n| ≤ 2 ^ 22 ∧ lastMin ops = n * 2 ^ e := by
  obtain ⟨h1, h2, h3⟩ := h
  unfold lastMin
  rw [List.getLastD_eq_getLast?]
  cases hl : (ops.filterMap (fun | .min v => some v | .max _ => none)).getLast? with
  | none =>
    refine ⟨-2 ^ (-e).toNat, ?_, ?_⟩
    · rw [abs_neg, abs_of_pos (by positivity)]
      exact pow_le_pow_right₀ (by norm_num) (by omega)
    · push_cast
      rw [← zpow_natCast, Int.toNat_of_nonneg (by omega), neg_mul, ← zpow_add₀ (by norm_num)]; simp
  | some v =>
    obtain ⟨op, hop, e1⟩ := List.mem_filterMap.mp (List.mem_of_getLast? hl)
    obtain ⟨n, hn, e2⟩ := h3 op hop
    refine ⟨n, hn, ?_⟩
    cases op <;> simp at e1
    rw [← e2]; simp [argOf, e1]

theorem lastMax_grid {e : ℤ} {ops : List (SetOp ℝ)} (h : OnGrid e ops) : ∃ n : ℤ, |n| ≤ 2 ^ 22 ∧ lastMax ops = n * 2 ^ e := by
  obtain ⟨h1, h2, h3⟩ := h
  unfold lastMax
  rw [List.getLastD_eq_getLast?]
  cases hl : (ops.filterMap (fun | .max v => some v | .min _ => none)).getLast? with
  | none =>
    refine ⟨2 ^ (-e).toNat, ?_, ?_⟩
    · rw [abs_of_pos (by positivity)]
      exact pow_le_pow_right₀ (by norm_num) (by omega)
    · push_cast
      rw [← zpow_natCast, Int.toNat_of_nonneg (by omega), ← zpow_add₀ (by norm_num)]; simp
  | some v =>
    obtain ⟨op, hop, e1⟩ := List.mem_filterMap.mp (List.mem_of_getLast? hl)
    obtain ⟨n, hn, e2⟩ := h3 op hop
    refine ⟨n, hn, ?_⟩
    cases op <;> simp at e1
    rw [← e2]; simp [argOf, e1]

theorem onGrid_init {e : ℤ} {ops : List (SetOp ℝ)} {op : SetOp ℝ} (h : OnGrid e (ops ++ [op])) : OnGrid e ops :=
  ⟨h.1, h.2.1, fun o ho => h.2.2 o (by simp [ho])⟩

theorem diff_rep {e : ℤ} (he : -149 ≤ e) {a b : ℝ} (ha : ∃ n : ℤ, |n| ≤ 2 ^ 22 ∧ a = n * 2 ^ e) (hb : ∃ n : ℤ, |n| ≤ 2 ^ 22 ∧ b = n * 2 ^ e) : Rep (a - b) := by
  obtain ⟨n, hn, rfl⟩ := ha
  obtain ⟨m, hm, rfl⟩ := hb
  refine ⟨n - m, e, ?_, he, by push_cast; ring⟩
  rw [abs_le] at *; constructor <;> omega

/-- **C58**: no setter call rounds when all limits are on a common binary grid: the binary32 fields are the exact ones, and the library remembers
the last minimum and maximum exactly. -/
theorem C58_setters_exact {e : ℤ} (ops : List (SetOp ℝ)) (h : OnGrid e ops) :
    rangeAfterF ops = rangeAfter ops ∧ (rangeAfterF ops).rangeMin = lastMin ops ∧
      (rangeAfterF ops).rangeMin + (rangeAfterF ops).rangeScale = lastMax ops := by
  have main : rangeAfterF ops = rangeAfter ops := by
    induction ops using List.reverseRecOn with
    | nil => rfl
    | append_singleton ops op ih =>
      have h' := onGrid_init h
      have he : -149 ≤ e := by have := h.1; omega
      have s := rangeAfter_spec ops
      have hmin := lastMin_grid h'
      have hmax := lastMax_grid h'
      obtain ⟨n, hn, hv⟩ := h.2.2 op (by simp)
      have e1 : rangeAfterF (ops ++ [op]) = applyF (rangeAfterF ops) op := by unfold rangeAfterF; rw [List.foldl_append]; rfl
      have e2 : rangeAfter (ops ++ [op]) = (rangeAfter ops).apply op := by unfold rangeAfter; rw [List.foldl_append]; rfl
      rw [e1, e2, ih h']
      have hsc : (rangeAfter ops).rangeScale = lastMax ops - lastMin ops := by rw [← s.2, s.1]; ring
      cases op with
      | min v =>
        have hv' : ∃ n : ℤ, |n| ≤ 2 ^ 22 ∧ v = n * 2 ^ e := ⟨n, hn, hv⟩
        simp only [applyF, Range.apply, setMin, Range.setMin, add, sub]
        rw [hsc, s.1, fl_rep (diff_rep he hmin hv')]
        rw [show lastMax ops - lastMin ops + (lastMin ops - v) = lastMax ops - v by ring, fl_rep (diff_rep he hmax hv')]
      | max v =>
        have hv' : ∃ n : ℤ, |n| ≤ 2 ^ 22 ∧ v = n * 2 ^ e := ⟨n, hn, hv⟩
        simp only [applyF, Range.apply, setMax, Range.setMax, sub]
        rw [s.1, fl_rep (diff_rep he hv' hmin)]
  refine ⟨main, ?_, ?_⟩ <;> rw [main]
  exacts [(rangeAfter_spec ops).1, (rangeAfter_spec ops).2]

/-- Non-vacuity: a typical history. -/
example : OnGrid (-1) [.min 0, .max 255, .min (-3.5)] ∧ lastMin [.min 0, .max 255, .min (-3.5)] = -3.5 := by
  refine ⟨⟨by norm_num, by norm_num, ?_⟩, by norm_num [lastMin]⟩
  intro op hop
  simp at hop
  rcases hop with rfl | rfl | rfl
  · exact ⟨0, by norm_num, by norm_num [argOf]⟩
  · exact ⟨510, by norm_num, by norm_num [argOf]⟩
  · exact ⟨-7, by norm_num, by norm_num [argOf]⟩

/-- What `value_scaleOutput` needs. -/
theorem grid_range {e : ℤ} {ops : List (SetOp ℝ)} (h : OnGrid e ops) {k : ℤ} (hk : -149 ≤ e + k) :
    Rep (rangeAfterF ops).rangeMin ∧ Rep (rangeAfterF ops).rangeScale ∧ Rep ((rangeAfterF ops).rangeScale * 2 ^ k) ∧
    add (rangeAfterF ops).rangeMin (rangeAfterF ops).rangeScale = lastMax ops := by
  obtain ⟨-, h2, h3⟩ := C58_setters_exact ops h
  have he : -149 ≤ e := by have := h.1; omega
  obtain ⟨n, hn, en⟩ := lastMin_grid h
  obtain ⟨m, hm, em⟩ := lastMax_grid h
  have hs : (rangeAfterF ops).rangeScale = ((m - n : ℤ) : ℝ) * 2 ^ e := by
    have : (rangeAfterF ops).rangeScale = lastMax ops - lastMin ops := by rw [← h3, h2]; ring
    rw [this, en, em]; push_cast; ring
  have hmn : |m - n| ≤ 2 ^ 24 := by rw [abs_le] at *; constructor <;> omega
  have hmax : Rep (lastMax ops) := by rw [em]; exact grid_rep he (by omega)
  refine ⟨by rw [h2, en]; exact grid_rep he (by omega), by rw [hs]; exact grid_rep he hmn,
    rep_mul_pow ⟨m - n, e, hmn, hk, hs⟩, ?_⟩
  unfold add
  rw [h3, fl_rep hmax]

/-! ## Range -/

theorem valuelike_range {e : ℤ} (ops : List (SetOp ℝ)) (h : OnGrid e ops) (L : Level) {v : ℝ} (hv : |v| ≤ valueBounds) :
    min (lastMin ops) (lastMax ops) ≤ scaleOutput L (rangeAfterF ops) v (-valueBounds) valueBounds ∧
    scaleOutput L (rangeAfterF ops) v (-valueBounds) valueBounds ≤ max (lastMin ops) (lastMax ops) := by
  obtain ⟨a, b, c, d⟩ := grid_range h (k := -32) (by have := h.1; omega)
  have := value_scaleOutput L (rangeAfterF ops) hv a b (by rw [div_eq_mul_inv]; norm_num at c ⊢; exact c)
  rw [d, (C58_setters_exact ops h).2.1] at this
  exact this

/-- **C58**: in binary32 arithmetic, at every SIMD level, value noise stays in the range set by the user, for every position, scale and seed. -/
theorem C58_value_range {e : ℤ} (ops : List (SetOp ℝ)) (h : OnGrid e ops) (L : Level) (scale : ℝ) (off seed : I32) (pos : Pos) :
    min (lastMin ops) (lastMax ops) ≤ value L (rangeAfterF ops) scale off seed pos ∧
    value L (rangeAfterF ops) scale off seed pos ≤ max (lastMin ops) (lastMax ops) :=
  valuelike_range ops h L (abs_valueRaw L _ _)

/-- **C58**: so does white noise. -/
theorem C58_white_range {e : ℤ} (ops : List (SetOp ℝ)) (h : OnGrid e ops) (L : Level) (off seed : I32) (bits : List I32) :
    min (lastMin ops) (lastMax ops) ≤ white L (rangeAfterF ops) off seed bits ∧
    white L (rangeAfterF ops) off seed bits ≤ max (lastMin ops) (lastMax ops) :=
  valuelike_range ops h L (abs_valueCoordF _ _)

/-- Non-vacuity: without any setter call the range is -1 to 1. -/
example (L : Level) (scale : ℝ) (off seed : I32) (pos : Pos) :
    -1 ≤ value L Range.init scale off seed pos ∧ value L Range.init scale off seed pos ≤ 1 := by
  have := C58_value_range (e := 0) [] ⟨by norm_num, by norm_num, by simp⟩ L scale off seed pos
  norm_num [lastMin, lastMax, rangeAfterF] at this
  exact this

/-- **C58**: the checkerboard takes exactly the two limits, the same one at every SIMD level. -/
theorem C58_checkerboard {e : ℤ} (ops : List (SetOp ℝ)) (h : OnGrid e ops) (L : Level) (freq : ℝ) (seed : I32) (pos : Pos) :
    checkerboard L (rangeAfterF ops) freq seed pos =
      if (foldXor ((scalePositions freq pos).map convertI32)).getLsbD 0 then lastMax ops else lastMin ops := by
  obtain ⟨a, b, c, d⟩ := grid_range h (k := -1) (by have := h.1; omega)
  have hmin := (C58_setters_exact ops h).2.1
  have hs := (C58_setters_exact ops h).2.2
  obtain ⟨v, hv⟩ : ∃ v, foldXor ((scalePositions freq pos).map convertI32) = v := ⟨_, rfl⟩
  have f1 : sub 2 0 = 2 := by unfold sub; rw [sub_zero, fl_rep rep_two]
  have f2 : fl (1 / 2) = 1 / 2 := fl_rep ⟨1, -1, by norm_num, by norm_num, by norm_num⟩
  have f3 : mul (1 / 2) (rangeAfterF ops).rangeScale = (rangeAfterF ops).rangeScale / 2 := by
    unfold mul
    rw [show (1 / 2 : ℝ) * (rangeAfterF ops).rangeScale = (rangeAfterF ops).rangeScale * 2 ^ (-1 : ℤ) by norm_num; ring, fl_rep c]
    norm_num; ring
  unfold checkerboard scaleOutput
  rw [hv, f1, f2, f3]
  have hb : (v &&& 1) <<< 30 = 0x40000000 ↔ v.getLsbD 0 = true := by
    constructor
    · intro hx
      have := congrArg (fun w : I32 => w.getLsbD 30) hx
      simp at this
      simpa using this
    · intro hx
      apply BitVec.eq_of_getLsbD_eq
      intro i hi
      simp only [BitVec.getLsbD_shiftLeft, BitVec.getLsbD_and]
      by_cases h30 : i = 30
      · subst h30; simp [hx]
      · have : (0x40000000 : I32).getLsbD i = false := by
          revert i; decide
        rw [this]
        by_cases hlt : i < 30
        · simp [hlt]
        · have : (1 : I32).getLsbD (i - 30) = false := by
            have : i = 31 := by omega
            subst this; decide
          rw [this]; simp
  unfold castBit30
  by_cases hx : v.getLsbD 0 = true
  · rw [if_pos (hb.mpr hx), if_pos hx]
    have : sub 2 0 = 2 := f1
    rw [this]
    unfold fma mul add
    rw [show (rangeAfterF ops).rangeScale / 2 * 2 = (rangeAfterF ops).rangeScale by ring, fl_rep b]
    have d' : fl ((rangeAfterF ops).rangeScale + (rangeAfterF ops).rangeMin) = lastMax ops := by rw [add_comm]; exact d
    rw [d']; simp
  · rw [if_neg (fun hc => hx (hb.mp hc)), if_neg hx]
    have : sub 0 0 = 0 := by unfold sub; rw [sub_zero, fl_zero]
    rw [this]
    unfold fma mul add
    rw [mul_zero, fl_zero, zero_add, fl_rep a, hmin]; simp

example (L : Level) : checkerboard L Range.init 1 0 [3, 4] = 1 := by
  have := C58_checkerboard (e := 0) [] ⟨by norm_num, by norm_num, by simp⟩ L 1 0 [3, 4]
  have e1 : rangeAfterF [] = Range.init := rfl
  have r3 : mul 3 1 = (3 : ℤ) := by unfold mul; rw [mul_one, fl_rep rep_three]; norm_num
  have r4 : mul 4 1 = (4 : ℤ) := by
    unfold mul; rw [mul_one]; have := fl_rep (rep_int (n := 4) (by norm_num)); push_cast at this ⊢; exact this
  rw [e1] at this
  rw [this]
  simp only [scalePositions, List.map_cons, List.map_nil, r3, r4, convertI32, roundEven_int, foldXor]
  norm_num [lastMax]
  decide

/-! ## Where the range is left -/

/-- The 0.001f of C++. -/
def milli : ℝ := 8589935 * 2 ^ (-33 : ℤ)

theorem milli_scale : sub milli (-1) = 1 + 8389 * 2 ^ (-23 : ℤ) := by
  unfold sub
  have := fl_eq (x := milli - -1) (m := 2 ^ 23 + 8389) (e := -23) (by norm_num) (by norm_num) (by norm_num [milli]) (by norm_num [milli, abs_lt])
  rw [this]; norm_num

/-- **C58**, what fails: when the difference of the limits is not a binary32 number the outputs can be above the maximum.  Here the user calls SetOutputMax(0.001f) on White:
at the origin, with seed 100173651, the output is 0.00100004673, at every SIMD level. -/
theorem C58_range_overshoot (L : Level) : rangeAfterF [.max milli] = ⟨-1, 1 + 8389 * 2 ^ (-23 : ℤ)⟩ ∧
    white L (rangeAfterF [.max milli]) 0 100173651 [0, 0] = 8389 * 2 ^ (-23 : ℤ) ∧ milli < 8389 * 2 ^ (-23 : ℤ) ∧ Rep milli := by
  have e1 : rangeAfterF [.max milli] = ⟨-1, 1 + 8389 * 2 ^ (-23 : ℤ)⟩ := by
    unfold rangeAfterF applyF setMax Range.init
    simp only [List.foldl_cons, List.foldl_nil, milli_scale]
  refine ⟨e1, ?_, by norm_num [milli], ⟨8589935, -33, by norm_num, by norm_num, rfl⟩⟩
  have hs : Rep (1 + 8389 * 2 ^ (-23 : ℤ) : ℝ) := ⟨2 ^ 23 + 8389, -23, by norm_num, by norm_num, by norm_num⟩
  have hh : (valueCoord (100173651 + 0) (List.zipWith whiteAxis [0, 0] primes)).toInt = 2147483645 := by decide +kernel
  have hv : valueCoordF (100173651 + 0) (List.zipWith whiteAxis [0, 0] primes) = 2 ^ 31 := by
    unfold valueCoordF
    rw [hh]
    have := fl_eq (x := (2147483645 : ℝ)) (m := 2 ^ 24) (e := 7) (by norm_num) (by norm_num) (by norm_num) (by norm_num [abs_lt])
    push_cast at this ⊢
    norm_num at this ⊢
    exact this
  unfold white
  rw [e1, hv]
  unfold scaleOutput
  simp only
  rw [value_factor (by
    have := rep_mul_pow (k := -32) (x := (1 + 8389 * 2 ^ (-23 : ℤ) : ℝ)) ⟨2 ^ 23 + 8389, -23, by norm_num, by norm_num, by norm_num⟩
    rw [div_eq_mul_inv]; norm_num at this ⊢; exact this)]
  have hw : sub (2 ^ 31) (-valueBounds) = 2 ^ 32 := by
    unfold sub
    rw [show (2 : ℝ) ^ 31 - -valueBounds = 2 ^ (32 : ℤ) by norm_num [valueBounds], fl_rep (rep_pow (by norm_num))]; norm_num
  rw [hw]
  have hp : (1 + 8389 * 2 ^ (-23 : ℤ) : ℝ) / 2 ^ 32 * 2 ^ 32 = 1 + 8389 * 2 ^ (-23 : ℤ) := by field_simp
  have hr : fl (1 + 8389 * 2 ^ (-23 : ℤ) + -1) = 8389 * 2 ^ (-23 : ℤ) := by
    rw [show (1 + 8389 * 2 ^ (-23 : ℤ) + -1 : ℝ) = 8389 * 2 ^ (-23 : ℤ) by ring]
    exact fl_rep ⟨8389, -23, by norm_num, by norm_num, by norm_num⟩
  unfold fma mul add
  rw [hp, fl_rep hs, hr]; simp

/-- **C58**: with limits of any kind set by `SetOutputMin(lo); SetOutputMax(hi)`, from whatever state, the outputs of Value and White
never pass `lo`, never pass a power of two that bounds both limits, and pass `hi` by at most `2^-23` of that power (`C58_range_overshoot`: they can pass it). -/
theorem C58_range_any (r : Range ℝ) (lo hi : ℝ) {k : ℤ} (hk : -69 ≤ k) (hlo : Rep lo) (hgap : 2 ^ (-94 : ℤ) ≤ hi - lo)
    (bl : |lo| ≤ 2 ^ k) (bh : |hi| ≤ 2 ^ k) (L : Level) (scale : ℝ) (off seed : I32) (pos : Pos) (bits : List I32) :
    let r' := setMax (setMin r lo) hi
    (lo ≤ value L r' scale off seed pos ∧ value L r' scale off seed pos ≤ 2 ^ k ∧ value L r' scale off seed pos ≤ hi + 2 ^ (k - 23)) ∧
    (lo ≤ white L r' off seed bits ∧ white L r' off seed bits ≤ 2 ^ k ∧ white L r' off seed bits ≤ hi + 2 ^ (k - 23)) := by
  intro r'
  have hr' : r' = ⟨lo, sub hi lo⟩ := rfl
  have hpk := two_zpow_pos k
  have hp24 := two_zpow_pos (k - 24)
  have hd : |hi - lo| ≤ 2 ^ (k + 1) := by
    rw [zpow_add₀ (by norm_num), zpow_one]
    have := abs_sub hi lo; linarith
  have he := fl_err_le (by omega) hd
  rw [show k + 1 - 25 = k - 24 by ring] at he
  have he' := abs_le.mp he
  have hsc : 2 ^ (-94 : ℤ) ≤ sub hi lo := le_fl (rep_pow (by norm_num)) hgap
  have hsp : 0 < sub hi lo := lt_of_lt_of_le (two_zpow_pos _) hsc
  have hrep : Rep (sub hi lo / 2 ^ 32) := by
    have := rep_scale (x := sub hi lo) (k := -32) (j := -94) (rep_fl _) (by rw [abs_of_pos hsp]; exact hsc) (by norm_num)
    rw [div_eq_mul_inv]; norm_num at this ⊢; exact this
  have hend : lo ≤ add lo (sub hi lo) := le_fl hlo (by linarith)
  have hsum : lo + sub hi lo ≤ hi + 2 ^ (k - 24) := by unfold sub; linarith
  have htop : add lo (sub hi lo) ≤ 2 ^ k := fl_le_pow (by omega) (by have := (abs_le.mp bh).2; linarith)
  have htop2 : add lo (sub hi lo) ≤ hi + 2 ^ (k - 23) := by
    have h23 : (2 : ℝ) ^ (k - 23) = 2 ^ (k - 24) * 2 := by rw [← zpow_add_one₀ (by norm_num)]; congr 1; ring
    have h24 : (2 : ℝ) ^ (k - 24) = 2 ^ (k - 25) * 2 := by rw [← zpow_add_one₀ (by norm_num)]; congr 1; ring
    by_cases hc : lo + sub hi lo ≤ 2 ^ k
    · have hlow : -2 ^ k ≤ lo + sub hi lo := by have := (abs_le.mp bl).1; linarith
      have := fl_err_le (x := lo + sub hi lo) (by omega) (abs_le.mpr ⟨hlow, hc⟩)
      have := (abs_le.mp this).2
      unfold add; linarith
    · push Not at hc
      linarith
  have main : ∀ v : ℝ, |v| ≤ valueBounds → lo ≤ scaleOutput L r' v (-valueBounds) valueBounds ∧ scaleOutput L r' v (-valueBounds) valueBounds ≤ 2 ^ k ∧
      scaleOutput L r' v (-valueBounds) valueBounds ≤ hi + 2 ^ (k - 23) := by
    intro v hv
    have := value_scaleOutput L r' hv (by rw [hr']; exact hlo) (by rw [hr']; exact rep_fl _) (by rw [hr']; exact hrep)
    rw [hr'] at this ⊢
    simp only [min_eq_left hend, max_eq_right hend] at this
    exact ⟨this.1, this.2.trans htop, this.2.trans htop2⟩
  exact ⟨main _ (abs_valueRaw L _ _), main _ (abs_valueCoordF _ _)⟩

/-- Non-vacuity: the range of `C58_range_overshoot`. -/
example : Rep (-1) ∧ (2 : ℝ) ^ (-94 : ℤ) ≤ milli - -1 ∧ |(-1 : ℝ)| ≤ 2 ^ (0 : ℤ) ∧ |milli| ≤ 2 ^ (0 : ℤ) :=
  ⟨rep_neg rep_one, by norm_num [milli], by norm_num, by norm_num [milli, abs_le]⟩

/-! ## SIMD levels -/

/-- Multiplying by a power of two does not round, so `ScaleOutput` does the same at every level when the width of the range is a power of two. -/
theorem scaleOutput_level (L L' : Level) (m : ℝ) {j : ℤ} (hj : -32 ≤ j) (hj2 : j ≤ 127) {v : ℝ} (hv : ∃ n : ℤ, v = n) :
    scaleOutput L ⟨m, 2 ^ j⟩ v (-valueBounds) valueBounds = scaleOutput L' ⟨m, 2 ^ j⟩ v (-valueBounds) valueBounds := by
  obtain ⟨n, rfl⟩ := hv
  have hf : Rep ((2 : ℝ) ^ j / 2 ^ 32) := by
    have := rep_pow (e := j - 32) (by omega)
    rwa [zpow_sub₀ (by norm_num)] at this
  have hint : ∃ i : ℤ, |i| ≤ 2 ^ 24 ∧ ∃ e : ℤ, 0 ≤ e ∧ sub n (-valueBounds) = i * 2 ^ e := by
    have e1 : (n : ℝ) - -valueBounds = ((n + 2147483648 : ℤ) : ℝ) := by norm_num [valueBounds]
    unfold sub
    rw [e1]
    by_cases hb : |n + 2147483648| ≤ 2 ^ 24
    · refine ⟨n + 2147483648, hb, 0, le_rfl, ?_⟩
      rw [fl_rep (rep_int hb)]; simp
    · push Not at hb
      obtain ⟨i, hi, e2⟩ := rep_multiple (rep_fl ((n + 2147483648 : ℤ) : ℝ))
      refine ⟨i, hi, _, ?_, e2⟩
      have h24 : (2 : ℝ) ^ (24 : ℤ) ≤ |fl ((n + 2147483648 : ℤ) : ℝ)| := by
        have hb' : ((2 : ℝ) ^ (24 : ℤ)) ≤ |((n + 2147483648 : ℤ) : ℝ)| := by
          have : ((2 ^ 24 : ℤ) : ℝ) ≤ ((|n + 2147483648| : ℤ) : ℝ) := by exact_mod_cast hb.le
          push_cast at this ⊢; norm_num at this ⊢; exact this
        have hp : Rep ((2 : ℝ) ^ (24 : ℤ)) := rep_pow (by norm_num)
        rcases le_total 0 ((n + 2147483648 : ℤ) : ℝ) with h0 | h0
        · rw [abs_of_nonneg h0] at hb'
          exact (le_fl hp hb').trans (le_abs_self _)
        · rw [abs_of_nonpos h0] at hb'
          have := fl_le (rep_neg hp) (by linarith : ((n + 2147483648 : ℤ) : ℝ) ≤ -2 ^ (24 : ℤ))
          exact le_trans (by linarith) (neg_le_abs _)
      have := le_lastPlace h24
      omega
  obtain ⟨i, hi, e, he, hw⟩ := hint
  unfold scaleOutput
  simp only
  rw [value_factor hf, hw]
  have hp : Rep ((2 : ℝ) ^ j / 2 ^ 32 * (i * 2 ^ e)) := by
    refine ⟨i, j - 32 + e, hi, by omega, ?_⟩
    rw [zpow_add₀ (by norm_num), zpow_sub₀ (by norm_num)]; norm_num; ring
  have key : ∀ L : Level, fma L ((2 : ℝ) ^ j / 2 ^ 32) (i * 2 ^ e) m = fl ((2 : ℝ) ^ j / 2 ^ 32 * (i * 2 ^ e) + m) := by
    intro L
    unfold fma add mul
    rw [fl_rep hp]; simp
  rw [key, key]

theorem int_fl (n : ℤ) : ∃ i : ℤ, fl n = i := by
  by_cases hb : |n| ≤ 2 ^ 24
  · exact ⟨n, fl_rep (rep_int hb)⟩
  · push Not at hb
    have h24 : (2 : ℝ) ^ (23 : ℤ) ≤ |(n : ℝ)| := by
      have : ((2 ^ 24 : ℤ) : ℝ) ≤ ((|n| : ℤ) : ℝ) := by exact_mod_cast hb.le
      push_cast at this ⊢; norm_num at this ⊢; linarith
    have h0 := le_lastPlace h24
    refine ⟨roundEven (n / 2 ^ lastPlace n) * 2 ^ (lastPlace n).toNat, ?_⟩
    unfold fl
    push_cast
    rw [← zpow_natCast, Int.toNat_of_nonneg (by omega)]

/-- **C58**: white noise is the same at every SIMD level when the width of the output range is a power of two (for instance the default range, or 0 to 1). -/
theorem C58_white_same_at_every_level {e : ℤ} (ops : List (SetOp ℝ)) (h : OnGrid e ops) {j : ℤ} (hw : lastMax ops - lastMin ops = 2 ^ j)
    (L L' : Level) (off seed : I32) (bits : List I32) :
    white L (rangeAfterF ops) off seed bits = white L' (rangeAfterF ops) off seed bits := by
  obtain ⟨-, h2, h3⟩ := C58_setters_exact ops h
  have hs : (rangeAfterF ops).rangeScale = 2 ^ j := by rw [← hw, ← h3, h2]; ring
  obtain ⟨n, hn, en⟩ := lastMin_grid h
  obtain ⟨m, hm, em⟩ := lastMax_grid h
  have hmn : ((m - n : ℤ) : ℝ) * 2 ^ e = 2 ^ j := by rw [← hw, en, em]; push_cast; ring
  have hpe := two_zpow_pos e
  have hpos : (1 : ℝ) ≤ ((m - n : ℤ) : ℝ) := by
    have : (0 : ℝ) < ((m - n : ℤ) : ℝ) := by
      by_contra hc
      push Not at hc
      have := mul_nonpos_of_nonpos_of_nonneg hc hpe.le
      have := two_zpow_pos j
      linarith
    have h : 0 < m - n := by exact_mod_cast this
    exact_mod_cast h
  have hle : ((m - n : ℤ) : ℝ) ≤ 2 ^ (23 : ℤ) := by
    have : m - n ≤ 2 ^ 23 := by rw [abs_le] at hn hm; omega
    have : ((m - n : ℤ) : ℝ) ≤ ((2 ^ 23 : ℤ) : ℝ) := by exact_mod_cast this
    push_cast at this ⊢; norm_num at this ⊢; exact this
  have ej : e ≤ j := by
    have : (2 : ℝ) ^ e ≤ 2 ^ j := by rw [← hmn]; nlinarith
    exact (zpow_le_zpow_iff_right₀ (by norm_num : (1 : ℝ) < 2)).mp this
  have je : j ≤ 23 + e := by
    have : (2 : ℝ) ^ j ≤ 2 ^ (23 + e) := by rw [← hmn, zpow_add₀ (by norm_num)]; exact mul_le_mul_of_nonneg_right hle hpe.le
    exact (zpow_le_zpow_iff_right₀ (by norm_num : (1 : ℝ) < 2)).mp this
  have hr : rangeAfterF ops = ⟨(rangeAfterF ops).rangeMin, 2 ^ j⟩ := by rw [← hs]
  unfold white
  rw [hr]
  have := h.1
  have := h.2.1
  exact scaleOutput_level L L' _ (by omega) (by omega) (int_fl _)

example : OnGrid 0 [.min 0] ∧ lastMax [.min 0] - lastMin [.min 0] = 2 ^ (0 : ℤ) := by
  refine ⟨⟨by norm_num, by norm_num, ?_⟩, by norm_num [lastMax, lastMin]⟩
  intro op hop
  simp at hop; subst hop
  exact ⟨0, by norm_num, by norm_num [argOf]⟩

/-- **C58**, what fails: with the range -1 to 2, white noise at the origin with seed 6 differs between levels with and without fused multiply-add. -/
theorem C58_white_differs : rangeAfterF [.max 2] = ⟨-1, 3⟩ ∧
    white ⟨true⟩ (rangeAfterF [.max 2]) 0 6 [0, 0] = 9842716 * 2 ^ (-27 : ℤ) ∧
    white ⟨false⟩ (rangeAfterF [.max 2]) 0 6 [0, 0] = 9842720 * 2 ^ (-27 : ℤ) := by
  have e1 : rangeAfterF [.max 2] = ⟨-1, 3⟩ := by
    unfold rangeAfterF applyF setMax Range.init
    simp only [List.foldl_cons, List.foldl_nil, sub]
    rw [show (2 : ℝ) - -1 = 3 by norm_num, fl_rep rep_three]
  have hh : (valueCoord (6 + 0) (List.zipWith whiteAxis [0, 0] primes)).toInt = -610838924 := by decide +kernel
  have hv : valueCoordF (6 + 0) (List.zipWith whiteAxis [0, 0] primes) = -9544358 * 2 ^ (6 : ℤ) := by
    unfold valueCoordF
    rw [hh]
    have := fl_eq (x := (-610838924 : ℝ)) (m := -9544358) (e := 6) (by norm_num) (by norm_num) (by norm_num) (by norm_num [abs_lt])
    push_cast at this ⊢
    exact this
  have hw : sub (-9544358 * 2 ^ (6 : ℤ)) (-valueBounds) = 12005037 * 2 ^ (7 : ℤ) := by
    unfold sub
    have := fl_eq (x := (-9544358 * 2 ^ (6 : ℤ) - -valueBounds : ℝ)) (m := 12005037) (e := 7) (by norm_num) (by norm_num)
      (by norm_num [valueBounds]) (by norm_num [valueBounds, abs_lt])
    push_cast at this ⊢
    exact this
  have hf := value_factor (s := 3) ⟨3, -32, by norm_num, by norm_num, by norm_num⟩
  refine ⟨e1, ?_, ?_⟩
  · unfold white scaleOutput
    rw [e1, hv]
    simp only
    rw [hf, hw]
    unfold fma
    rw [if_pos rfl]
    have := fl_eq (x := (3 / 2 ^ 32 * (12005037 * 2 ^ (7 : ℤ)) + -1 : ℝ)) (m := 9842716) (e := -27) (by norm_num) (by norm_num)
      (by norm_num) (by norm_num)
    push_cast at this ⊢
    exact this
  · unfold white scaleOutput
    rw [e1, hv]
    simp only
    rw [hf, hw]
    unfold fma
    rw [if_neg (by simp)]
    have hp : mul (3 / 2 ^ 32) (12005037 * 2 ^ (7 : ℤ)) = 9003778 * 2 ^ (-23 : ℤ) := by
      unfold mul
      have := fl_eq (x := (3 / 2 ^ 32 * (12005037 * 2 ^ (7 : ℤ)) : ℝ)) (m := 9003778) (e := -23) (by norm_num) (by norm_num)
        (by norm_num) (by norm_num [abs_lt])
      push_cast at this ⊢
      exact this
    rw [hp]
    unfold add
    have : Rep (9003778 * 2 ^ (-23 : ℤ) + -1 : ℝ) := ⟨9842720, -27, by norm_num, by norm_num, by norm_num⟩
    rw [fl_rep this]; norm_num

/-! ## The lattice -/

/-- **C58**: at the lattice points of a scale that is a power of two, value noise is the scaled hash of the point, rounded to 24 bits and no more than once per operation of `ScaleOutput`: no
interpolation error is left, at any SIMD level. -/
theorem C58_value_lattice (L : Level) (r : Range ℝ) {j : ℤ} (hj : -100 ≤ j) (hj2 : j ≤ 100) (off seed : I32) (m : List ℤ) (hm : ∀ k ∈ m, |k| ≤ 2 ^ 24) :
    value L r (2 ^ j) off seed (m.map fun k : ℤ => (k : ℝ) * 2 ^ j) =
      scaleOutput L r (fl (latticeValue (seed + off) m)) (-valueBounds) valueBounds := by
  have hfr : frequency (2 ^ j) = 2 ^ (-j) := by
    unfold frequency
    rw [one_div, ← zpow_neg, fl_rep (rep_pow (by omega))]
  have hsp : scalePositions (frequency (2 ^ j)) (m.map fun k : ℤ => (k : ℝ) * 2 ^ j) = m.map fun k : ℤ => (k : ℝ) := by
    rw [hfr]
    unfold scalePositions
    rw [List.map_map]
    apply List.map_congr_left
    intro k hk
    simp only [Function.comp_apply, mul]
    rw [mul_assoc, ← zpow_add₀ (by norm_num), add_neg_cancel, zpow_zero, mul_one, fl_rep (rep_int (hm k hk))]
  have hfit : Fits m := by
    intro k hk
    have := abs_le.mp (hm k hk)
    constructor <;> omega
  unfold value valueRaw
  rw [hsp, interp_zero]
  · rw [List.length_map]
    unfold valueCoordF latticeValue
    rw [corner_eq _ _ (fits_inRange hfit)]
    simp only [List.length_map, cornerZ_int]
  · intro t ht
    obtain ⟨x, hx, rfl⟩ := List.mem_map.mp ht
    obtain ⟨k, _, rfl⟩ := List.mem_map.mp hx
    rw [Int.floor_intCast]
    unfold sub
    rw [sub_self, fl_zero, hermite_zero]
  · intro bs; exact rep_fl _

example : (∀ k ∈ [3, -1000000, 77], |k| ≤ 2 ^ 24) ∧ ((-100 : ℤ) ≤ 5) := by decide

/-- The scale of the demo applications is not a power of two; the theorem above does not need the positions to be integers. -/
example (L : Level) (r : Range ℝ) : value L r (2 ^ (-1 : ℤ)) 0 7 [(3 : ℤ) * 2 ^ (-1 : ℤ), (5 : ℤ) * 2 ^ (-1 : ℤ)] =
    scaleOutput L r (fl (latticeValue (7 + 0) [3, 5])) (-valueBounds) valueBounds :=
  C58_value_lattice L r (by norm_num) (by norm_num) 0 7 [3, 5] (by decide)

/-! ## Distance from exact arithmetic -/

/-- **C58**: in binary32, at every SIMD level, the value noise of a point is within `(20 n + 7) / 2^25` (less than 0.0000026 in 4D), in units of a power of two that bounds the range, of the exact value noise
(`Lattice.value`, C36) at the scaled position the processor computes. -/
theorem C58_value_near_exact {e : ℤ} (ops : List (SetOp ℝ)) (h : OnGrid e ops) {k : ℤ} (hk : -100 ≤ k) (bl : |lastMin ops| ≤ 2 ^ k) (bh : |lastMax ops| ≤ 2 ^ k)
    (L : Level) (scale : ℝ) (off seed : I32) (pos : Pos) :
    |value L (rangeAfterF ops) scale off seed pos - Lattice.value (rangeAfter ops) 1 off seed (scalePositions (frequency scale) pos)| ≤
      (20 * pos.length + 7) / 2 ^ 25 * 2 ^ k := by
  obtain ⟨hra, h2, h3⟩ := C58_setters_exact ops h
  obtain ⟨ra, rb, rc, rd⟩ := grid_range h (k := -32) (by have := h.1; omega)
  obtain ⟨q, hq⟩ : ∃ q, scalePositions (frequency scale) pos = q := ⟨_, rfl⟩
  have hlen : q.length = pos.length := by rw [← hq]; simp [scalePositions]
  have hraw := valueRaw_err L (seed + off) q
  have hb := abs_valueRaw L (seed + off) q
  have hsc : (rangeAfterF ops).rangeScale = lastMax ops - lastMin ops := by rw [← h3, h2]; ring
  have hone : Basic.scalePositions (Basic.frequency 1) q = q := by
    unfold Basic.scalePositions Basic.frequency
    simp
  unfold value Lattice.value
  rw [hq, hone, ← hra]
  unfold scaleOutput Range.scaleOutput
  rw [value_factor (by rw [div_eq_mul_inv]; norm_num at rc ⊢; exact rc), h2, hsc]
  rw [hlen] at hraw
  have := scale_err L (by omega) bl bh hb hraw
  have e1 : 1 / (valueBounds - -valueBounds) * (lastMax ops - lastMin ops) = (lastMax ops - lastMin ops) / 2 ^ 32 := by
    have : valueBounds - -valueBounds = 2 ^ 32 := by norm_num [valueBounds]
    rw [this]; ring
  unfold Num.fma
  rw [e1]
  refine this.trans (le_of_eq ?_)
  ring

/-- Non-vacuity: the default range in 4D. -/
example (L : Level) (scale : ℝ) (off seed : I32) (x y z w : ℝ) :
    |value L Range.init scale off seed [x, y, z, w] - Lattice.value Range.init 1 off seed (scalePositions (frequency scale) [x, y, z, w])| ≤ 87 / 2 ^ 25 := by
  have := C58_value_near_exact (e := 0) [] ⟨by norm_num, by norm_num, by simp⟩ (k := 0) (by norm_num) (by norm_num [lastMin]) (by norm_num [lastMax]) L scale off seed [x, y, z, w]
  have e1 : rangeAfterF [] = Range.init := rfl
  have e2 : rangeAfter [] = Range.init := rfl
  rw [e1, e2] at this
  norm_num at this ⊢
  exact this

/-- **C58**: the scaled position the processor computes is `position / scale` up to two roundings (relative error 1.2e-7), as long as nothing is smaller than the smallest normal number. -/
theorem C58_scaled_position (p scale : ℝ) (h0 : scale ≠ 0) (h1 : |scale| ≤ 2 ^ (100 : ℤ)) (hp : p = 0 ∨ 2 ^ (-125 : ℤ) * |scale| ≤ |p|) :
    scalePositions (frequency scale) [p] = [mul p (frequency scale)] ∧ |mul p (frequency scale) - p / scale| ≤ |p / scale| * (2 / 2 ^ 24 + 1 / 2 ^ 48) := by
  refine ⟨rfl, ?_⟩
  rcases hp with rfl | hp
  · unfold mul; rw [zero_mul, fl_zero, zero_div]; simp
  have hs : 0 < |scale| := abs_pos.mpr h0
  have hf := fl_rel (x := 1 / scale) (by
    rw [abs_div, abs_one, le_div_iff₀ hs]
    have a1 : (2 : ℝ) ^ (-126 : ℤ) * |scale| ≤ 2 ^ (-126 : ℤ) * 2 ^ (100 : ℤ) := by gcongr
    rw [← zpow_add₀ (by norm_num)] at a1
    refine a1.trans ?_
    norm_num)
  have hq : 2 ^ (-125 : ℤ) ≤ |p / scale| := by rw [abs_div, le_div_iff₀ hs]; exact hp
  have hpf : |p * frequency scale - p / scale| ≤ |p / scale| / 2 ^ 24 := by
    have e1 : p * frequency scale - p / scale = p * (fl (1 / scale) - 1 / scale) := by unfold frequency; ring
    rw [e1, abs_mul]
    refine (mul_le_mul_of_nonneg_left hf (abs_nonneg p)).trans (le_of_eq ?_)
    rw [abs_div, abs_div, abs_one]; ring
  have hbig : 2 ^ (-126 : ℤ) ≤ |p * frequency scale| := by
    have h2 : |p / scale| ≤ |p * frequency scale| + |p * frequency scale - p / scale| := by
      have := abs_sub_abs_le_abs_sub (p / scale) (p * frequency scale)
      rw [abs_sub_comm] at this; linarith
    have h125 : (2 : ℝ) ^ (-125 : ℤ) = 2 ^ (-126 : ℤ) * 2 := by rw [← zpow_add_one₀ (by norm_num)]; norm_num
    have hpos := two_zpow_pos (-126)
    have h24 : |p / scale| / 2 ^ 24 ≤ |p / scale| / 2 := by gcongr; norm_num
    generalize |p / scale| = A at *
    generalize |p * frequency scale| = B at *
    generalize (2 : ℝ) ^ (-126 : ℤ) = C at *
    rw [h125] at hq
    linarith
  have hr := fl_rel hbig
  have hub : |p * frequency scale| ≤ |p / scale| * (1 + 1 / 2 ^ 24) := by
    have := abs_sub_abs_le_abs_sub (p * frequency scale) (p / scale)
    have h3 := abs_nonneg (p / scale)
    linarith
  have e2 := abs_add_le (mul p (frequency scale) - p * frequency scale) (p * frequency scale - p / scale)
  rw [show ∀ a b c : ℝ, a - b + (b - c) = a - c by intros; ring] at e2
  unfold mul at e2 ⊢
  have h3 := abs_nonneg (p / scale)
  have h4 : |p * frequency scale| / 2 ^ 24 ≤ |p / scale| * (1 + 1 / 2 ^ 24) / 2 ^ 24 := by gcongr
  generalize |p / scale| = A at *
  generalize |p * frequency scale| = B at *
  norm_num at *
  linarith

/-- Non-vacuity: the default scale 100. -/
example : (100 : ℝ) ≠ 0 ∧ |(100 : ℝ)| ≤ 2 ^ (100 : ℤ) ∧ ((235.5 : ℝ) = 0 ∨ 2 ^ (-125 : ℤ) * |(100 : ℝ)| ≤ |(235.5 : ℝ)|) := by
  refine ⟨by norm_num, by norm_num, Or.inr ?_⟩
  rw [show (-125 : ℤ) = -(125 : ℤ) by norm_num, zpow_neg]; norm_num

end
end FastNoise.F32
