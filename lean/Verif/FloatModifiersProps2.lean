import Verif.FloatModifiersLemmas
import Verif.ModifierProps
/-!
# C63: Remap, ConvertRGBA8, Terrace and PingPong in binary32 arithmetic
-/
namespace FastNoise.F32
open FastNoise.Hash FastNoise.Num FastNoise.Basic
open FastNoise.Modifiers (fltMin affine chan)

noncomputable section

/-! ## Remap -/

/-- **C63**, Remap: with clamping the output is within [To Min, To Max]; a source at From Min gives exactly To Min, clamped or not; and a greater source never gives a smaller output. -/
theorem C63_remap (clamp : Bool) {f0 f1 t0 t1 : ℝ} (hf0 : Rep f0) (hf1 : Rep f1) (ht0 : Rep t0) (hf : f0 < f1) (ht : t0 ≤ t1) :
    (∀ x, t0 ≤ remap true f0 f1 t0 t1 x ∧ remap true f0 f1 t0 t1 x ≤ t1) ∧ remap clamp f0 f1 t0 t1 f0 = t0 ∧
    (∀ x y, x ≤ y → remap clamp f0 f1 t0 t1 x ≤ remap clamp f0 f1 t0 t1 y) := by
  have hp := sub_pos' hf1 hf0 hf
  have hT : 0 ≤ sub t1 t0 := le_fl rep_zero (by linarith)
  refine ⟨fun x => ?_, ?_, fun x y h => ?_⟩
  · unfold remap
    simp only [if_true]
    exact ⟨le_min (le_max_right _ _) ht, min_le_right _ _⟩
  · have e : add t0 (mul (div (sub f0 f0) (sub f1 f0)) (sub t1 t0)) = t0 := by
      rw [sub_self']
      unfold add mul div
      simp [fl_zero, fl_rep ht0]
    unfold remap
    simp only [e]
    cases clamp
    · rfl
    · simp [ht]
  · have h1 : add t0 (mul (div (sub x f0) (sub f1 f0)) (sub t1 t0)) ≤ add t0 (mul (div (sub y f0) (sub f1 f0)) (sub t1 t0)) := by
      have h2 : sub x f0 ≤ sub y f0 := fl_mono (by linarith)
      have h3 := mul_le_mul_of_nonneg_right (div_mono hp h2) hT
      exact fl_mono (by unfold mul; linarith [fl_mono h3])
    unfold remap
    cases clamp
    · exact h1
    · exact min_le_min (max_le_max h1 le_rfl) le_rfl

theorem ratio_err {s w s' w' : ℝ} (h0 : 0 ≤ s) (hw : 0 < w) (hs : |s' - s| ≤ s / 2 ^ 24) (hw' : |w' - w| ≤ w / 2 ^ 24) : |s' / w' - s / w| ≤ s / w * (3 / 2 ^ 24) := by
  have a := abs_le.mp hs
  have b := abs_le.mp hw'
  have hp : 0 < w' := by linarith
  have e : s' / w' - s / w = (s' * w - s * w') / (w * w') := by field_simp
  have h1 : |s' * w - s * w'| ≤ 2 * (s * w) / 2 ^ 24 := by
    have e2 : s' * w - s * w' = (s' - s) * w - s * (w' - w) := by ring
    rw [e2]
    have := abs_sub ((s' - s) * w) (s * (w' - w))
    rw [abs_mul, abs_mul, abs_of_pos hw, abs_of_nonneg h0] at this
    have h2 := mul_le_mul_of_nonneg_right hs hw.le
    have h3 := mul_le_mul_of_nonneg_left hw' h0
    linarith
  rw [e, abs_div, abs_of_pos (by positivity : 0 < w * w'), div_le_iff₀ (by positivity)]
  have h4 : s / w * (3 / 2 ^ 24) * (w * w') = s * w' * (3 / 2 ^ 24) := by field_simp
  rw [h4]
  refine h1.trans ?_
  have h5 : s * (w * (1 - 1 / 2 ^ 24)) ≤ s * w' := mul_le_mul_of_nonneg_left (by linarith) h0
  have : 0 ≤ s * w := mul_nonneg h0 hw.le
  nlinarith

/-- **C63**, Remap: for a source within the from range and targets bounded by `2^k`, the output is within `11 * 2^(k-24)` (11 units of relative precision) of the exact affine map. -/
theorem C63_remap_error (clamp : Bool) {f0 f1 t0 t1 x : ℝ} {k : ℤ} (hk : -100 ≤ k) (hf0 : Rep f0) (hf1 : Rep f1) (ht0 : Rep t0) (ht1 : Rep t1) (hx : Rep x) (hf : f0 < f1)
    (ht : t0 ≤ t1) (b0 : |t0| ≤ 2 ^ k) (b1 : |t1| ≤ 2 ^ k) (x0 : f0 ≤ x) (x1 : x ≤ f1) :
    |remap clamp f0 f1 t0 t1 x - affine f0 f1 t0 t1 x| ≤ 11 * 2 ^ (k - 24) := by
  let y := add t0 (mul (div (sub x f0) (sub f1 f0)) (sub t1 t0))
  rw [show remap clamp f0 f1 t0 t1 x = if clamp then min (max y t0) t1 else y from rfl]
  simp only [y]
  have hpk := two_zpow_pos k
  have hw : 0 < f1 - f0 := by linarith
  have hs : 0 ≤ x - f0 := by linarith
  have hwp := sub_pos' hf1 hf0 hf
  have es := sub_rel hx hf0
  have ew := sub_rel hf1 hf0
  rw [abs_of_nonneg hs] at es
  rw [abs_of_pos hw] at ew
  have er := ratio_err hs hw es ew
  set ρ := (x - f0) / (f1 - f0) with hρ
  have r0 : 0 ≤ ρ := _root_.div_nonneg hs hw.le
  have r1 : ρ ≤ 1 := (div_le_one hw).mpr (by linarith)
  have hsw : sub x f0 ≤ sub f1 f0 := fl_mono (by linarith)
  have hs0 : 0 ≤ sub x f0 := le_fl rep_zero hs
  have q0 : 0 ≤ div (sub x f0) (sub f1 f0) := div_nonneg' hwp.le hs0
  have q1 : div (sub x f0) (sub f1 f0) ≤ 1 := div_le_one' hwp hsw
  have eq : |div (sub x f0) (sub f1 f0) - ρ| ≤ 7 / 2 ^ 25 := by
    have h1 := fl_err_le (x := sub x f0 / sub f1 f0) (k := 0) (by norm_num) (by
      rw [abs_of_nonneg (_root_.div_nonneg hs0 hwp.le)]; norm_num; exact (div_le_one hwp).mpr hsw)
    have h2 : ρ * (3 / 2 ^ 24) ≤ 3 / 2 ^ 24 := by nlinarith
    have h1 := abs_le.mp h1
    have h3 := abs_le.mp (er.trans h2)
    unfold div
    rw [abs_le]; norm_num at h1 h3 ⊢; constructor <;> linarith
  have B0 := abs_le.mp b0
  have B1 := abs_le.mp b1
  have hT0 : 0 ≤ t1 - t0 := by linarith
  have hT2 : t1 - t0 ≤ 2 ^ k * 2 := by linarith
  have eT := sub_rel ht1 ht0
  rw [abs_of_nonneg hT0] at eT
  have eT := abs_le.mp eT
  have rk1 : Rep ((2 : ℝ) ^ k * 2) := by rw [← zpow_add_one₀ (by norm_num)]; exact rep_pow (by omega)
  have T0 : 0 ≤ sub t1 t0 := le_fl rep_zero hT0
  have T1 : sub t1 t0 ≤ 2 ^ k * 2 := fl_le rk1 hT2
  generalize sub t1 t0 = T at *
  generalize div (sub x f0) (sub f1 f0) = q at *
  have hk24 : (2 : ℝ) ^ (k - 24) = 2 ^ k / 2 ^ 24 := by rw [zpow_sub₀ (by norm_num)]; norm_num
  have eqT : |q * T - ρ * (t1 - t0)| ≤ 9 * (2 ^ k / 2 ^ 24) := by
    have e : q * T - ρ * (t1 - t0) = (q - ρ) * T + ρ * (T - (t1 - t0)) := by ring
    rw [e]
    have h1 : |(q - ρ) * T| ≤ 7 / 2 ^ 25 * (2 ^ k * 2) := by
      rw [abs_mul, abs_of_nonneg T0]; exact mul_le_mul eq T1 T0 (by norm_num)
    have h2 : |ρ * (T - (t1 - t0))| ≤ 1 * ((t1 - t0) / 2 ^ 24) := by
      rw [abs_mul, abs_of_nonneg r0]; exact mul_le_mul r1 (abs_le.mpr eT) (abs_nonneg _) (by norm_num)
    have := abs_add_le ((q - ρ) * T) (ρ * (T - (t1 - t0)))
    linarith
  have m0 : 0 ≤ q * T := mul_nonneg q0 T0
  have m1 : q * T ≤ 2 ^ k * 2 := by nlinarith
  have em : |mul q T - q * T| ≤ 2 ^ k / 2 ^ 24 := by
    have := fl_err_le (x := q * T) (k := k + 1) (by omega) (by rw [abs_of_nonneg m0, zpow_add_one₀ (by norm_num)]; exact m1)
    rw [show k + 1 - 25 = k - 24 by ring, hk24] at this
    exact this
  have ea : affine f0 f1 t0 t1 x = t0 + ρ * (t1 - t0) := by
    unfold affine; rw [hρ]; field_simp; ring
  have aff0 : t0 ≤ t0 + ρ * (t1 - t0) := by nlinarith
  have aff1 : t0 + ρ * (t1 - t0) ≤ t1 := by nlinarith
  have E1 := abs_le.mp eqT
  have E2 := abs_le.mp em
  have hy : |t0 + mul q T| ≤ 2 ^ (k + 1) := by
    rw [zpow_add_one₀ (by norm_num), abs_le]
    constructor <;> linarith
  have ef := fl_err_le (by omega) hy
  rw [show k + 1 - 25 = k - 24 by ring, hk24] at ef
  have E3 := abs_le.mp ef
  have main : |add t0 (mul q T) - (t0 + ρ * (t1 - t0))| ≤ 11 * (2 ^ k / 2 ^ 24) := by
    unfold add; rw [abs_le]; constructor <;> linarith
  rw [ea, hk24]
  have M := abs_le.mp main
  cases clamp
  · exact main
  · simp only [if_true]
    have h1 : max (add t0 (mul q T)) t0 ≤ t0 + ρ * (t1 - t0) + 11 * (2 ^ k / 2 ^ 24) := max_le (by linarith) (by linarith [two_zpow_pos k])
    have h2 : t0 + ρ * (t1 - t0) - 11 * (2 ^ k / 2 ^ 24) ≤ max (add t0 (mul q T)) t0 := le_trans (by linarith) (le_max_left _ _)
    rw [abs_le]
    constructor
    · have := le_min h2 (by linarith : t0 + ρ * (t1 - t0) - 11 * (2 ^ k / 2 ^ 24) ≤ t1)
      linarith
    · have := (min_le_left (max (add t0 (mul q T)) t0) t1).trans h1
      linarith

/-- The full statement fails at From Max: remapping [0, 1] to [-1, `2^-25`], a source of 1 gives 0, not To Max, clamped or not; to [-1, `3 * 2^-25`] it gives more than To Max without clamping. -/
theorem C63_remap_end_misses (clamp : Bool) : remap clamp 0 1 (-1) (2 ^ (-25 : ℤ)) 1 = 0 ∧ remap false 0 1 (-1) (3 * 2 ^ (-25 : ℤ)) 1 = 4 * 2 ^ (-25 : ℤ) := by
  have h1 : fl (1 : ℝ) = 1 := fl_rep rep_one
  have e0 : sub 1 0 = 1 := by unfold sub; rw [sub_zero, h1]
  have e1 : div (sub 1 0) (sub 1 0) = 1 := by rw [e0]; exact div_self' one_ne_zero
  constructor
  · have e2 : sub (2 ^ (-25 : ℤ)) (-1) = 1 := by
      have := fl_eq (x := 2 ^ (-25 : ℤ) - -1) (m := 2 ^ 23) (e := -23) (by norm_num) (by norm_num) (by norm_num [abs_of_pos]) (by norm_num [abs_lt])
      unfold sub; rw [this]; norm_num
    have e3 : add (-1) (mul (div (sub 1 0) (sub 1 0)) (sub (2 ^ (-25 : ℤ)) (-1))) = 0 := by
      rw [e1, e2]; unfold mul add; rw [mul_one, h1]; norm_num [fl_zero]
    unfold remap
    simp only [e3]
    cases clamp
    · rfl
    · norm_num
  · have e2 : sub (3 * 2 ^ (-25 : ℤ)) (-1) = 1 + 2 ^ (-23 : ℤ) := by
      have := fl_eq (x := 3 * 2 ^ (-25 : ℤ) - -1) (m := 2 ^ 23 + 1) (e := -23) (by norm_num) (by norm_num) (by norm_num [abs_of_pos]) (by norm_num [abs_lt])
      unfold sub; rw [this]; norm_num
    have e3 : add (-1) (mul (div (sub 1 0) (sub 1 0)) (sub (3 * 2 ^ (-25 : ℤ)) (-1))) = 2 ^ (-23 : ℤ) := by
      rw [e1, e2]; unfold mul add
      rw [one_mul, fl_rep (x := 1 + 2 ^ (-23 : ℤ)) ⟨2 ^ 23 + 1, -23, by norm_num, by norm_num, by norm_num⟩, show (-1 : ℝ) + (1 + 2 ^ (-23 : ℤ)) = 2 ^ (-23 : ℤ) by ring,
        fl_rep (rep_pow (by norm_num))]
    unfold remap
    simp only [e3]
    norm_num

example : remap true (-1) 1 0 1 (-1) = 0 :=
  (C63_remap true (rep_neg rep_one) rep_one rep_zero (by norm_num) zero_le_one).2.1

/-! ## ConvertRGBA8 -/

/-- The product converted to a byte. -/
def greyReal (m M v : ℝ) : ℝ := mul (sub (max (min v M) m) m) (div 255 (sub M m))

theorem range_le {m M : ℝ} (h : M - m ≤ 2 ^ (127 : ℤ)) : sub M m ≤ 2 ^ (127 : ℤ) := fl_le (rep_pow (by norm_num)) h

theorem clamp_mem {m M v : ℝ} (h : m < M) : m ≤ max (min v M) m ∧ max (min v M) m ≤ M := ⟨le_max_right _ _, max_le (min_le_right _ _) h.le⟩

theorem scale_rel {m M : ℝ} (hm : Rep m) (hM : Rep M) (h : m < M) (hl : M - m ≤ 2 ^ (127 : ℤ)) :
    |div 255 (sub M m) - 255 / sub M m| ≤ 255 / sub M m / 2 ^ 24 := by
  have hp := sub_pos' hM hm h
  have := fl_rel (x := 255 / sub M m) (by
    rw [abs_of_pos (by positivity), le_div_iff₀ hp]
    have := mul_le_mul_of_nonneg_left (range_le hl) (two_zpow_pos (-126)).le
    refine this.trans ?_
    norm_num)
  rw [abs_of_pos (by positivity : 0 < 255 / sub M m)] at this
  exact this

theorem greyReal_mem {m M : ℝ} (v : ℝ) (hm : Rep m) (hM : Rep M) (h : m < M) (hl : M - m ≤ 2 ^ (127 : ℤ)) : 0 ≤ greyReal m M v ∧ greyReal m M v ≤ 255 + 1 / 4 := by
  have hp := sub_pos' hM hm h
  have hc := clamp_mem (v := v) h
  have h0 : 0 ≤ sub (max (min v M) m) m := le_fl rep_zero (by linarith)
  have h1 : sub (max (min v M) m) m ≤ sub M m := fl_mono (by linarith)
  have hq := abs_le.mp (scale_rel hm hM h hl)
  have q0 : 0 ≤ div 255 (sub M m) := div_nonneg' hp.le (by norm_num)
  refine ⟨le_fl rep_zero (mul_nonneg h0 q0), fl_le ⟨1021, -2, by norm_num, by norm_num, by norm_num⟩ ?_⟩
  have h2 : sub (max (min v M) m) m * div 255 (sub M m) ≤ sub M m * (255 / sub M m * (1 + 1 / 2 ^ 24)) :=
    mul_le_mul h1 (by linarith) q0 hp.le
  have h3 : sub M m * (255 / sub M m * (1 + 1 / 2 ^ 24)) = 255 * (1 + 1 / 2 ^ 24) := by field_simp
  rw [h3] at h2
  refine h2.trans (by norm_num)

theorem grey_byte {m M : ℝ} (v : ℝ) (hm : Rep m) (hM : Rep M) (h : m < M) (hl : M - m ≤ 2 ^ (127 : ℤ)) :
    0 ≤ roundEven (greyReal m M v) ∧ roundEven (greyReal m M v) ≤ 255 := by
  have hg := greyReal_mem v hm hM h hl
  constructor
  · exact le_roundEven (by push_cast; exact hg.1)
  · have h1 := Modifiers.roundEven_mono hg.2
    have h2 : roundEven (255 + 1 / 4 : ℝ) = 255 := roundEven_eq (by rw [abs_lt]; constructor <;> norm_num)
    omega

theorem rgba8_chan {m M : ℝ} (v : ℝ) (hm : Rep m) (hM : Rep M) (h : m < M) (hl : M - m ≤ 2 ^ (127 : ℤ)) :
    chan (rgba8Word m M v) 3 = 255 ∧ ∀ i < 3, (chan (rgba8Word m M v) i).toInt = roundEven (greyReal m M v) := by
  have hp := sub_pos' hM hm h
  have hb := grey_byte v hm hM h hl
  have e : convertI32 (greyReal m M v) = BitVec.ofInt 32 (roundEven (greyReal m M v)) := by
    unfold convertI32
    exact if_pos ⟨le_trans (by norm_num) hb.1, lt_of_le_of_lt hb.2 (by norm_num)⟩
  have hw := Modifiers.rgba_bits _ hb.1 hb.2
  simp only [] at hw
  have ew : rgba8Word m M v = 0xFF000000 ||| BitVec.ofInt 32 (roundEven (greyReal m M v)) ||| (BitVec.ofInt 32 (roundEven (greyReal m M v)) <<< 8) |||
      (BitVec.ofInt 32 (roundEven (greyReal m M v)) <<< 16) := by
    rw [← e]; unfold rgba8Word greyReal
    simp only [if_neg hp.ne']
  rw [ew]
  refine ⟨hw.1, fun i hi => ?_⟩
  rcases (by omega : i = 0 ∨ i = 1 ∨ i = 2) with rfl | rfl | rfl
  · rw [hw.2.1, hw.2.2.2.2]
  · rw [hw.2.2.1, hw.2.2.2.2]
  · rw [hw.2.2.2.1, hw.2.2.2.2]

/-- **C63**, ConvertRGBA8, for an increasing range within the range of floats: the pixel is opaque and grey, its level is 0 to 255 and within `1/2 + 2^-13` of the exact scaled value, exactly 0 at
and below Min, exactly 255 at and above Max, and never smaller for a greater source.  (The lower bound on the width keeps the code's `255 / width` finite.) -/
theorem C63_rgba8 {m M : ℝ} (hm : Rep m) (hM : Rep M) (_hw : 2 ^ (-119 : ℤ) ≤ M - m) (h : m < M) (hl : M - m ≤ 2 ^ (127 : ℤ)) :
    (∀ v, chan (rgba8Word m M v) 3 = 255 ∧ chan (rgba8Word m M v) 1 = chan (rgba8Word m M v) 0 ∧ chan (rgba8Word m M v) 2 = chan (rgba8Word m M v) 0) ∧
    (∀ v, 0 ≤ (chan (rgba8Word m M v) 0).toInt ∧ (chan (rgba8Word m M v) 0).toInt ≤ 255) ∧
    (∀ v, Rep v → |((chan (rgba8Word m M v) 0).toInt : ℝ) - 255 * ((max m (min M v) - m) / (M - m))| ≤ 1 / 2 + 1 / 2 ^ 13) ∧
    (∀ v, v ≤ m → (chan (rgba8Word m M v) 0).toInt = 0) ∧ (∀ v, M ≤ v → (chan (rgba8Word m M v) 0).toInt = 255) ∧
    (∀ v w, v ≤ w → (chan (rgba8Word m M v) 0).toInt ≤ (chan (rgba8Word m M w) 0).toInt) := by
  have hp := sub_pos' hM hm h
  have q0 : 0 ≤ div 255 (sub M m) := div_nonneg' hp.le (by norm_num)
  have hc : ∀ v, _ := fun v => rgba8_chan v hm hM h hl
  have h0 : ∀ v, (chan (rgba8Word m M v) 0).toInt = roundEven (greyReal m M v) := fun v => (hc v).2 0 (by norm_num)
  have hs := scale_rel hm hM h hl
  have hq := abs_le.mp hs
  refine ⟨fun v => ⟨(hc v).1, ?_, ?_⟩, fun v => by rw [h0]; exact grey_byte v hm hM h hl, fun v hv => ?_, fun v hv => ?_, fun v hv => ?_, fun v w hvw => ?_⟩
  · exact BitVec.eq_of_toInt_eq (by rw [h0, (hc v).2 1 (by norm_num)])
  · exact BitVec.eq_of_toInt_eq (by rw [h0, (hc v).2 2 (by norm_num)])
  · rw [h0]
    have hcl := clamp_mem (v := v) h
    have ec : max (min v M) m = max m (min M v) := by rw [max_comm, min_comm]
    have rc : Rep (max (min v M) m) := rep_max (rep_min hv hM) hm
    rw [← ec]
    have hsn : 0 ≤ max (min v M) m - m := by linarith
    have hw : 0 < M - m := by linarith
    have es := sub_rel rc hm
    have ew := sub_rel hM hm
    rw [abs_of_nonneg hsn] at es
    rw [abs_of_pos hw] at ew
    have er := ratio_err hsn hw es ew
    have r1 : (max (min v M) m - m) / (M - m) ≤ 1 := (div_le_one hw).mpr (by linarith)
    have r0 : 0 ≤ (max (min v M) m - m) / (M - m) := _root_.div_nonneg hsn hw.le
    have s0 : 0 ≤ sub (max (min v M) m) m := le_fl rep_zero hsn
    have s1 : sub (max (min v M) m) m ≤ sub M m := fl_mono (by linarith)
    have hround := abs_le.mp (roundEven_err (greyReal m M v))
    have hprod : |sub (max (min v M) m) m * div 255 (sub M m) - 255 * (sub (max (min v M) m) m / sub M m)| ≤ 255 / 2 ^ 24 := by
      have e : sub (max (min v M) m) m * div 255 (sub M m) - 255 * (sub (max (min v M) m) m / sub M m) =
          sub (max (min v M) m) m * (div 255 (sub M m) - 255 / sub M m) := by field_simp
      rw [e, abs_mul, abs_of_nonneg s0]
      refine (mul_le_mul s1 hs (abs_nonneg _) hp.le).trans (le_of_eq ?_)
      field_simp
    have hpm : |sub (max (min v M) m) m * div 255 (sub M m)| ≤ 2 ^ (8 : ℤ) := by
      have hd : sub (max (min v M) m) m / sub M m ≤ 1 := (div_le_one hp).mpr s1
      have hd0 : 0 ≤ sub (max (min v M) m) m / sub M m := _root_.div_nonneg s0 hp.le
      have := abs_le.mp hprod
      rw [abs_le]; norm_num at this ⊢; constructor <;> linarith
    have hfl := abs_le.mp (fl_err_le (k := 8) (by norm_num) hpm)
    have hg : fl (sub (max (min v M) m) m * div 255 (sub M m)) = greyReal m M v := rfl
    rw [hg] at hfl
    generalize sub (max (min v M) m) m * div 255 (sub M m) = P at *
    generalize sub (max (min v M) m) m / sub M m = R at *
    generalize (max (min v M) m - m) / (M - m) = ρ at *
    have A := abs_le.mp hprod
    have B := abs_le.mp (er.trans (by nlinarith : ρ * (3 / 2 ^ 24) ≤ 3 / 2 ^ 24))
    rw [abs_le]; norm_num at A B hfl hround ⊢; constructor <;> linarith
  · rw [h0]
    have e : greyReal m M v = 0 := by
      unfold greyReal
      rw [min_eq_left (by linarith), max_eq_right hv, sub_self']
      unfold mul; rw [zero_mul, fl_zero]
    rw [e]; exact_mod_cast roundEven_int 0
  · rw [h0]
    have e : greyReal m M v = fl (sub M m * div 255 (sub M m)) := by
      unfold greyReal
      rw [min_eq_right hv, max_eq_left h.le]; rfl
    have hprod : |sub M m * div 255 (sub M m) - 255| ≤ 255 / 2 ^ 24 := by
      have e : sub M m * div 255 (sub M m) - 255 = sub M m * (div 255 (sub M m) - 255 / sub M m) := by field_simp
      rw [e, abs_mul, abs_of_pos hp]
      refine (mul_le_mul_of_nonneg_left hs hp.le).trans (le_of_eq ?_)
      field_simp
    have A := abs_le.mp hprod
    have hfl := abs_le.mp (fl_err_le (x := sub M m * div 255 (sub M m)) (k := 8) (by norm_num) (by rw [abs_le]; norm_num at A ⊢; constructor <;> linarith))
    rw [e]
    refine roundEven_eq ?_
    rw [abs_lt]; norm_num at A hfl ⊢; constructor <;> linarith
  · rw [h0, h0]
    refine Modifiers.roundEven_mono (fl_mono (mul_le_mul_of_nonneg_right (fl_mono ?_) q0))
    have := max_le_max (min_le_min hvw (le_refl M)) (le_refl m)
    linarith

example : ∃ m M : ℝ, Rep m ∧ Rep M ∧ 2 ^ (-119 : ℤ) ≤ M - m ∧ m < M ∧ M - m ≤ 2 ^ (127 : ℤ) :=
  ⟨-1, 1, rep_neg rep_one, rep_one, by norm_num, by norm_num, by norm_num⟩

/-! ## Terrace -/

theorem step_recip {n : ℕ} (h0 : 0 < n) (hn : n ≤ 2 ^ 24) : 0 ≤ div 1 (n : ℝ) ∧ (n : ℝ) * div 1 n ≤ 1 + 1 / 2 ^ 24 := by
  have hp : (0 : ℝ) < n := by exact_mod_cast h0
  have hn' : (n : ℝ) ≤ 2 ^ 24 := by exact_mod_cast hn
  have := fl_rel (x := 1 / (n : ℝ)) (by
    rw [abs_of_pos (by positivity), le_div_iff₀ hp]; norm_num; nlinarith)
  rw [abs_of_pos (by positivity : 0 < 1 / (n : ℝ))] at this
  have h := (abs_le.mp this).2
  refine ⟨div_nonneg' hp.le zero_le_one, ?_⟩
  unfold div
  have h2 : (n : ℝ) * fl (1 / n) ≤ n * (1 / n + 1 / n / 2 ^ 24) := mul_le_mul_of_nonneg_left (by linarith) hp.le
  refine h2.trans (le_of_eq ?_)
  field_simp

theorem terrace_out {n : ℕ} (h0 : 0 < n) (hn : n ≤ 2 ^ 24) {r : ℝ} (hr : |r| ≤ n) : |mul r (div 1 (n : ℝ))| ≤ 1 := by
  obtain ⟨q0, q1⟩ := step_recip h0 hn
  have h : |r * div 1 (n : ℝ)| ≤ 1 + 1 / 2 ^ 24 := by
    rw [abs_mul, abs_of_nonneg q0]; exact (mul_le_mul_of_nonneg_right hr q0).trans q1
  have A := abs_le.mp h
  unfold mul
  rw [abs_le]
  have u := fl_le_pow (k := 0) (x := r * div 1 (n : ℝ)) (by norm_num) (by norm_num at A ⊢; linarith)
  have l := neg_pow_le_fl (k := 0) (x := r * div 1 (n : ℝ)) (by norm_num) (by norm_num at A ⊢; linarith)
  norm_num at u l
  exact ⟨l, u⟩

theorem scaled_mem {n : ℕ} (hn : n ≤ 2 ^ 24) {x : ℝ} (hx : |x| ≤ 1) : |mul x n| ≤ n := by
  have rn : Rep (n : ℝ) := by exact_mod_cast rep_int (n := n) (by rw [abs_of_nonneg (by positivity)]; exact_mod_cast hn)
  have h : |x * n| ≤ n := by
    rw [abs_mul, abs_of_nonneg (by positivity : (0 : ℝ) ≤ n)]
    exact mul_le_of_le_one_left (by positivity) hx
  rw [abs_le] at h ⊢
  exact fl_mem (rep_neg rn) rn h

theorem rounded_mem {n : ℕ} {x : ℝ} (hx : |x| ≤ n) : |roundEven x| ≤ n := by
  have := abs_le.mp hx
  rw [abs_le]
  exact ⟨le_roundEven (by push_cast; linarith), roundEven_le (by push_cast; linarith)⟩

theorem terraceSmooth_mem {n : ℕ} (hn : n ≤ 2 ^ 24) {x c : ℝ} (hrx : Rep x) (hx : |x| ≤ n) (hc : 1 ≤ c) : |terraceSmooth (roundEven x : ℤ) x c| ≤ n := by
  have rn : Rep (n : ℝ) := by exact_mod_cast rep_int (n := n) (by rw [abs_of_nonneg (by positivity)]; exact_mod_cast hn)
  have hr := rounded_mem hx
  have rr : Rep ((roundEven x : ℤ) : ℝ) := rep_int (hr.trans (by exact_mod_cast hn))
  have X := abs_le.mp hx
  have R := abs_le.mp hr
  have err := abs_le.mp (roundEven_err x)
  have hd : |sub (roundEven x : ℤ) x| ≤ 0.5 := by
    rw [abs_le]
    exact fl_mem (rep_neg rep_half) rep_half ⟨by norm_num at err ⊢; linarith, by norm_num at err ⊢; linarith⟩
  have d1 : 0 ≤ sub 0.5 |sub (roundEven x : ℤ) x| := le_fl rep_zero (by linarith)
  have d2 : 0 ≤ mul (sub 0.5 |sub (roundEven x : ℤ) x|) c := le_fl rep_zero (mul_nonneg d1 (by linarith))
  have d3 : 0 ≤ min (mul (sub 0.5 |sub (roundEven x : ℤ) x|) c) 0.5 := le_min d2 (by norm_num)
  have d4 : min (mul (sub 0.5 |sub (roundEven x : ℤ) x|) c) 0.5 ≤ 0.5 := min_le_right _ _
  unfold terraceSmooth
  simp only []
  by_cases hneg : sub (roundEven x : ℤ) x < 0
  · simp only [hneg, decide_true, if_true]
    have e := fl_mem rep_zero rep_half (x := 0.5 - min (mul (sub 0.5 |sub (roundEven x : ℤ) x|) c) 0.5) ⟨by linarith, by linarith⟩
    have hlt : ((roundEven x : ℤ) : ℝ) < x := by
      by_contra hge
      push Not at hge
      have : 0 ≤ sub (roundEven x : ℤ) x := le_fl rep_zero (by linarith)
      linarith
    have hlt' : roundEven x < n := by
      have : ((roundEven x : ℤ) : ℝ) < (n : ℤ) := by push_cast; linarith
      exact_mod_cast this
    have hle : ((roundEven x : ℤ) : ℝ) ≤ n - 1 := by
      have : roundEven x ≤ n - 1 := by omega
      exact_mod_cast this
    have hge : -(n : ℝ) ≤ (roundEven x : ℤ) := by exact_mod_cast R.1
    rw [abs_le]
    unfold sub at e ⊢
    exact fl_mem (rep_neg rn) rn ⟨by linarith [e.1], by norm_num at e ⊢; linarith [e.2]⟩
  · simp only [hneg, decide_false, Bool.false_eq_true, if_false]
    push Not at hneg
    have e := fl_mem (rep_neg rep_half) rep_zero (x := min (mul (sub 0.5 |sub (roundEven x : ℤ) x|) c) 0.5 - 0.5) ⟨by linarith, by linarith⟩
    have hxr : x ≤ (roundEven x : ℤ) := by
      by_contra hlt
      push Not at hlt
      have := sub_pos' hrx rr hlt
      rw [sub_swap] at hneg
      linarith
    have hle : ((roundEven x : ℤ) : ℝ) ≤ n := by exact_mod_cast R.2
    rw [abs_le]
    rcases eq_or_lt_of_le R.1 with h1 | h1
    · have hr1 : ((roundEven x : ℤ) : ℝ) = -n := by rw [← h1]; push_cast; rfl
      have hx1 : x = -n := by linarith
      have hz : sub (roundEven x : ℤ) x = 0 := by rw [hr1, hx1]; exact sub_self' _
      have hm : min (mul (sub 0.5 |sub (roundEven x : ℤ) x|) c) 0.5 = 0.5 := by
        refine min_eq_right ?_
        rw [hz]
        unfold sub mul
        rw [abs_zero, sub_zero, fl_rep rep_half]
        exact le_fl rep_half (by norm_num; linarith)
      rw [hm, sub_self', hr1]
      unfold add
      rw [add_zero, fl_rep (rep_neg rn)]
      exact ⟨le_rfl, by have : (0 : ℝ) ≤ n := by positivity
                        linarith⟩
    · have hge : -(n : ℝ) + 1 ≤ (roundEven x : ℤ) := by
        have : -(n : ℤ) + 1 ≤ roundEven x := by omega
        exact_mod_cast this
      unfold sub at e ⊢
      exact fl_mem (rep_neg rn) rn ⟨by norm_num at e ⊢; linarith [e.1], by linarith [e.2]⟩

/-- **C63**, Terrace with a whole number of steps: a source within [-1, 1] stays within [-1, 1], whether the steps are sharp, smoothed by a positive constant, or smoothed by a generator (`rcp` is
the processor's approximate reciprocal, of which only the sign matters).  And sharp steps never fall where the source rises. -/
theorem C63_terrace {n : ℕ} (h0 : 0 < n) (hn : n ≤ 2 ^ 24) :
    (∀ x, |x| ≤ 1 → |terraceSharp n x| ≤ 1) ∧ (∀ s x, 0 < s → |x| ≤ 1 → |terraceConst n s x| ≤ 1) ∧
    (∀ rcp : ℝ → ℝ, (∀ s, 0 < s → 0 ≤ rcp s) → ∀ s x, 0 ≤ s → |x| ≤ 1 → |terraceGen rcp n s x| ≤ 1) ∧
    (∀ x y, x ≤ y → terraceSharp n x ≤ terraceSharp n y) := by
  have sharp : ∀ x, |x| ≤ 1 → |((roundEven (mul x n) : ℤ) : ℝ)| ≤ n := fun x hx => by exact_mod_cast rounded_mem (scaled_mem hn hx)
  refine ⟨fun x hx => terrace_out h0 hn (sharp x hx), fun s x hs hx => ?_, fun rcp hr s x hs hx => ?_, fun x y h => ?_⟩
  · refine terrace_out h0 hn (terraceSmooth_mem hn (rep_mul _ _) (scaled_mem hn hx) (le_fl rep_one ?_))
    have := div_nonneg' hs.le zero_le_one; linarith
  · unfold terraceGen
    simp only []
    refine terrace_out h0 hn ?_
    split
    · rename_i hne
      have hp : 0 < s := lt_of_le_of_ne hs (Ne.symm hne)
      exact terraceSmooth_mem hn (rep_mul _ _) (scaled_mem hn hx) (le_fl rep_one (by have := hr s hp; linarith))
    · exact sharp x hx
  · have hp : (0 : ℝ) ≤ n := by positivity
    have h1 := Modifiers.roundEven_mono (fl_mono (mul_le_mul_of_nonneg_right h hp))
    exact fl_mono (mul_le_mul_of_nonneg_right (by exact_mod_cast h1) (step_recip h0 hn).1)

/-- With a fractional step count the output leaves the range: 1 becomes 4/3 (rounded) with one and a half steps. -/
theorem C63_terrace_fraction_exceeds : 1 < terraceSharp 1.5 1 := by
  have r : Rep (1.5 : ℝ) := ⟨3, -1, by norm_num, by norm_num, by norm_num⟩
  have e : mul 1 1.5 = 1.5 := by unfold mul; rw [one_mul, fl_rep r]
  have e2 : roundEven (1.5 : ℝ) = 2 := by
    have : ⌊(1.5 : ℝ)⌋ = 1 := by rw [Int.floor_eq_iff]; norm_num
    unfold roundEven; rw [this]; norm_num
  have e3 : (0.6 : ℝ) < div 1 1.5 := by
    have := fl_err_le (x := 1 / 1.5) (k := 0) (by norm_num) (by norm_num [abs_of_pos])
    have := (abs_le.mp this).1
    unfold div; norm_num at this ⊢; linarith
  unfold terraceSharp
  rw [e, e2]
  have h : (1.125 : ℝ) ≤ ((2 : ℤ) : ℝ) * div 1 1.5 := by push_cast; norm_num at e3 ⊢; linarith
  have := le_fl (r := 1.125) ⟨9, -3, by norm_num, by norm_num, by norm_num⟩ h
  unfold mul
  norm_num at this ⊢
  linarith

example : |terraceConst (3 : ℕ) 0.5 0.7| ≤ 1 := (C63_terrace (n := 3) (by norm_num) (by norm_num)).2.1 0.5 0.7 (by norm_num) (by norm_num [abs_of_pos])

/-! ## PingPong -/

theorem rep_floor {x : ℝ} (h : Rep x) : Rep (⌊x⌋ : ℤ) := by
  obtain ⟨m, e, hm, he, rfl⟩ := h
  rcases le_or_gt 0 e with h0 | h0
  · have e1 : (m : ℝ) * 2 ^ e = ((m * 2 ^ e.toNat : ℤ) : ℝ) := by
      push_cast; rw [← zpow_natCast, Int.toNat_of_nonneg h0]
    rw [e1, Int.floor_intCast, ← e1]
    exact ⟨m, e, hm, he, rfl⟩
  · have h1 : (2 : ℝ) ^ e ≤ 1 := zpow_le_one_of_nonpos₀ (by norm_num) h0.le
    have hm' : |(m : ℝ)| ≤ 2 ^ 24 := by exact_mod_cast hm
    have h2 : |(m : ℝ) * 2 ^ e| ≤ 2 ^ 24 := by
      rw [abs_mul, abs_of_pos (two_zpow_pos e)]
      calc _ ≤ 2 ^ 24 * 1 := mul_le_mul hm' h1 (two_zpow_pos e).le (by norm_num)
        _ = _ := by ring
    have A := abs_le.mp h2
    refine rep_int (abs_le.mpr ⟨?_, ?_⟩)
    · exact Int.le_floor.mpr (by push_cast; linarith)
    · have : ((⌊(m : ℝ) * 2 ^ e⌋ : ℤ) : ℝ) ≤ 2 ^ 24 := (Int.floor_le _).trans A.2
      exact_mod_cast this

/-- Halving and taking the floor is exact, but for the largest negative float. -/
theorem floor_half {t : ℝ} (ht : Rep t) (hne : t ≠ -2 ^ (-149 : ℤ)) : ⌊mul t 0.5⌋ = ⌊t * 0.5⌋ := by
  by_cases hb : 2 ^ (-125 : ℤ) ≤ |t|
  · have : Rep (t * 0.5) := by
      have := rep_scale ht (k := -1) hb (by norm_num)
      rw [show (0.5 : ℝ) = 2 ^ (-1 : ℤ) by norm_num]; exact this
    unfold mul; rw [fl_rep this]
  push Not at hb
  have hb1 : |t| < 1 := hb.trans (by norm_num)
  have B := abs_lt.mp hb1
  rcases le_or_gt 0 t with h0 | h0
  · have h1 := fl_mem rep_zero rep_half (x := t * 0.5) ⟨by positivity, by norm_num; linarith⟩
    have e1 : ⌊t * 0.5⌋ = 0 := by rw [Int.floor_eq_zero_iff]; constructor <;> norm_num <;> linarith
    have e2 : ⌊mul t 0.5⌋ = 0 := by rw [Int.floor_eq_zero_iff]; unfold mul; constructor <;> norm_num at h1 ⊢ <;> linarith
    rw [e1, e2]
  · obtain ⟨n, hn⟩ := rep_tiny ht
    have hp := two_zpow_pos (-149)
    have hn0 : n ≤ -2 := by
      have h1 : (n : ℝ) < 0 := by
        by_contra hc; push Not at hc
        have := mul_nonneg hc hp.le
        linarith
      have h2 : n < 0 := by exact_mod_cast h1
      have h3 : n ≠ -1 := by rintro rfl; apply hne; rw [hn]; push_cast; ring
      omega
    have hn1 : (n : ℝ) ≤ -2 := by exact_mod_cast hn0
    have hx : t * 0.5 ≤ -2 ^ (-149 : ℤ) := by
      rw [hn]; norm_num at hn1 hp ⊢; nlinarith
    have h1 := fl_le (rep_neg (rep_pow (e := -149) le_rfl)) hx
    have h2 := le_fl (rep_neg rep_half) (x := t * 0.5) (by norm_num; linarith)
    have e1 : ⌊t * 0.5⌋ = -1 := by rw [Int.floor_eq_iff]; norm_num at hx hp ⊢; constructor <;> linarith
    have e2 : ⌊mul t 0.5⌋ = -1 := by rw [Int.floor_eq_iff]; unfold mul; norm_num at h1 h2 hp ⊢; constructor <;> linarith
    rw [e1, e2]

/-- **C63**, PingPong: unless the scaled source is the largest negative float, `-2^-149`, the output is within [0, 1], a scaled source within [0, 1] is unchanged, and the output is within `2^-23`
of the exact one. -/
theorem C63_pingPong_partial (strength source : ℝ) (h : mul source strength ≠ -2 ^ (-149 : ℤ)) :
    0 ≤ pingPong strength source ∧ pingPong strength source ≤ 1 ∧
    (0 ≤ mul source strength → mul source strength ≤ 1 → pingPong strength source = mul source strength) ∧
    |pingPong strength source - Modifiers.pingPongFn (mul source strength)| ≤ 1 / 2 ^ 23 := by
  have ht : Rep (mul source strength) := rep_mul _ _
  unfold pingPong
  generalize mul source strength = t at *
  have hfl := floor_half ht h
  simp only [hfl]
  have r2 : mul ((⌊t * 0.5⌋ : ℤ) : ℝ) 2 = (⌊t * 0.5⌋ : ℤ) * 2 := by
    have h1 : Rep ((⌊mul t 0.5⌋ : ℤ) : ℝ) := rep_floor (rep_mul _ _)
    rw [hfl] at h1
    have := rep_mul_pow_nonneg h1 (k := 1) (by norm_num)
    unfold mul
    rw [fl_rep (by simpa using this)]
  rw [r2]
  unfold Modifiers.pingPongFn
  simp only []
  have hy := Modifiers.pingPong_reduce t
  have hid : 0 ≤ t → t ≤ 1 → t - (⌊t * 0.5⌋ : ℤ) * 2 = t := by
    intro h0 h1
    have : ⌊t * 0.5⌋ = 0 := by rw [Int.floor_eq_zero_iff]; constructor <;> norm_num <;> linarith
    rw [this]; norm_num
  have key : ∀ y, 0 ≤ y → y < 2 → (0 ≤ (if fl y < 1 then fl y else sub 2 (fl y)) ∧ (if fl y < 1 then fl y else sub 2 (fl y)) ≤ 1 ∧
      |(if fl y < 1 then fl y else sub 2 (fl y)) - (if y < 1 then y else 2 - y)| ≤ 1 / 2 ^ 23) := by
    intro y y0 y2
    have m := fl_mem rep_zero rep_two (x := y) ⟨y0, y2.le⟩
    have e := abs_le.mp (fl_err_le (x := y) (k := 1) (by norm_num) (by rw [abs_of_nonneg y0]; norm_num; exact y2.le))
    norm_num at e
    split_ifs with h1 h2 h2
    · refine ⟨m.1, h1.le, ?_⟩
      rw [abs_le]; norm_num; constructor <;> linarith
    · refine ⟨m.1, h1.le, ?_⟩
      push Not at h2
      have := le_fl rep_one h2
      linarith
    all_goals
      push Not at h1
      have m2 := fl_mem rep_zero rep_one (x := 2 - fl y) ⟨by linarith, by linarith⟩
      have e2 := abs_le.mp (fl_err_le (x := 2 - fl y) (k := 0) (by norm_num) (by rw [abs_of_nonneg (by linarith)]; norm_num; linarith))
      norm_num at e2
      refine ⟨m2.1, m2.2, ?_⟩
      unfold sub
      rw [abs_le]; norm_num
    · have : fl y ≤ 1 := fl_le rep_one h2.le
      constructor <;> linarith
    · constructor <;> linarith
  have K := key _ hy.1 hy.2
  refine ⟨K.1, K.2.1, ?_, K.2.2⟩
  intro h0 h1
  have es : sub t ((⌊t * 0.5⌋ : ℤ) * 2) = t := by unfold sub; rw [hid h0 h1, fl_rep ht]
  rw [es]
  rcases eq_or_lt_of_le h1 with rfl | h2
  · unfold sub
    rw [if_neg (by norm_num)]; norm_num [fl_rep rep_one]
  · rw [if_pos h2]

/-- At the largest negative float the output is negative, below the range. -/
theorem C63_pingPong_negative : pingPong 1 (-2 ^ (-149 : ℤ)) = -2 ^ (-149 : ℤ) := by
  have rp := rep_neg (rep_pow (e := -149) le_rfl)
  have e1 : mul (-2 ^ (-149 : ℤ)) 1 = -2 ^ (-149 : ℤ) := by unfold mul; rw [mul_one, fl_rep rp]
  have e2 : mul (-2 ^ (-149 : ℤ)) 0.5 = 0 := by
    unfold mul fl
    have hl : lastPlace (-2 ^ (-149 : ℤ) * 0.5) = -149 := by
      unfold lastPlace
      rw [show |(-2 ^ (-149 : ℤ) * 0.5 : ℝ)| = 2 ^ (-150 : ℤ) by norm_num [abs_of_pos], show (2 : ℝ) = ((2 : ℕ) : ℝ) by norm_num, Int.log_zpow (by norm_num)]
      norm_num
    rw [hl]
    have : roundEven ((-2 ^ (-149 : ℤ) * 0.5) / 2 ^ (-149 : ℤ) : ℝ) = 0 := by
      rw [show ((-2 ^ (-149 : ℤ) * 0.5) / 2 ^ (-149 : ℤ) : ℝ) = -(1 / 2) by norm_num]
      have : ⌊(-(1 / 2) : ℝ)⌋ = -1 := by rw [Int.floor_eq_iff]; norm_num
      unfold roundEven; rw [this]; norm_num
    rw [this]; norm_num
  unfold pingPong
  simp only [e1, e2]
  have e3 : sub (-2 ^ (-149 : ℤ)) (mul ((⌊(0 : ℝ)⌋ : ℤ) : ℝ) 2) = -2 ^ (-149 : ℤ) := by
    rw [Int.floor_zero]
    unfold sub mul
    rw [Int.cast_zero, zero_mul, fl_zero, sub_zero, fl_rep rp]
  rw [e3, if_pos (by norm_num)]

example : pingPong 2 0.75 = 0.5 := by
  have e : mul 0.75 2 = 1.5 := by
    unfold mul; rw [fl_rep ⟨3, -1, by norm_num, by norm_num, by norm_num⟩]; norm_num
  have e2 : mul 1.5 0.5 = 0.75 := by
    unfold mul; rw [fl_rep ⟨3, -2, by norm_num, by norm_num, by norm_num⟩]; norm_num
  have e3 : ⌊(0.75 : ℝ)⌋ = 0 := by rw [Int.floor_eq_zero_iff]; constructor <;> norm_num
  have r : Rep (1.5 : ℝ) := ⟨3, -1, by norm_num, by norm_num, by norm_num⟩
  unfold pingPong
  simp only [e, e2, e3]
  unfold sub mul
  rw [Int.cast_zero, zero_mul, fl_zero, sub_zero, fl_rep r, if_neg (by norm_num), show (2 - 1.5 : ℝ) = 0.5 by norm_num, fl_rep rep_half]

end
end FastNoise.F32
