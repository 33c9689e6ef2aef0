import Verif.FloatNoise
import Verif.F32Lemmas
import Verif.LatticeLemmas
/-!
# Lemmas about the binary32 generators
-/
namespace FastNoise.F32
open FastNoise.Hash FastNoise.Num FastNoise.Basic FastNoise.Lattice

noncomputable section

theorem neg_pow_le_fl {x : ℝ} {k : ℤ} (hk : -125 ≤ k) (h : -(2 ^ k + 2 ^ (k - 24)) ≤ x) : -2 ^ k ≤ fl x := by
  have := fl_le_pow hk (x := -x) (by linarith)
  rw [fl_neg] at this; linarith

/-- Rounding an interval with representable ends stays inside. -/
theorem fl_mem {x a b : ℝ} (ha : Rep a) (hb : Rep b) (h : a ≤ x ∧ x ≤ b) : a ≤ fl x ∧ fl x ≤ b := ⟨le_fl ha h.1, fl_le hb h.2⟩

theorem rep_one : Rep 1 := by have := rep_int (n := 1) (by norm_num); exact_mod_cast this
theorem rep_three : Rep 3 := by have := rep_int (n := 3) (by norm_num); exact_mod_cast this
theorem rep_two : Rep 2 := by have := rep_int (n := 2) (by norm_num); exact_mod_cast this

/-! ## Lerp -/

theorem lerp_neg (L : Level) (a b t : ℝ) : lerp L (-a) (-b) t = -lerp L a b t := by
  have e : sub (-b) (-a) = -sub b a := by
    unfold sub; rw [← fl_neg]; congr 1; ring
  unfold lerp fma
  rw [e]
  by_cases h : L.fused
  · rw [if_pos h, if_pos h, ← fl_neg]; congr 1; ring
  · rw [if_neg h, if_neg h]
    unfold add mul
    rw [show t * -sub b a = -(t * sub b a) by ring, fl_neg (t * sub b a), ← fl_neg (fl (t * sub b a) + a)]
    congr 1; ring

theorem lerp_le (L : Level) {k : ℤ} (hk : -125 ≤ k) {a b t : ℝ} (ha : |a| ≤ 2 ^ k) (hb : |b| ≤ 2 ^ k) (t0 : 0 ≤ t) (t1 : t ≤ 1) :
    lerp L a b t ≤ 2 ^ k := by
  have hpk := two_zpow_pos k
  have hba : |b - a| ≤ 2 ^ (k + 1) := by
    rw [zpow_add₀ (by norm_num), zpow_one]
    have := abs_sub b a; linarith
  have hd := fl_err_le (by omega) hba
  rw [show k + 1 - 25 = k - 24 by ring] at hd
  have hd' : sub b a ≤ b - a + 2 ^ (k - 24) := by
    have := (abs_le.mp hd).2; unfold sub; linarith
  have hp := two_zpow_pos (k - 24)
  have ha' := (abs_le.mp ha).2
  have hb' := (abs_le.mp hb).2
  have key : ∀ p : ℝ, p ≤ max 0 (sub b a) → fl (p + a) ≤ 2 ^ k := by
    intro p h
    apply fl_le_pow hk
    rcases le_max_iff.mp h with h | h <;> linarith
  have h1 : t * sub b a ≤ max 0 (sub b a) := by
    rcases le_total 0 (sub b a) with h | h
    · exact le_trans (by nlinarith) (le_max_right _ _)
    · exact le_trans (mul_nonpos_of_nonneg_of_nonpos t0 h) (le_max_left _ _)
  unfold lerp fma
  split
  · exact key _ h1
  · refine key _ (fl_le ?_ h1)
    rcases max_choice 0 (sub b a) with e | e <;> rw [e]
    · exact rep_zero
    · exact rep_fl _

theorem abs_lerp_le (L : Level) {k : ℤ} (hk : -125 ≤ k) {a b t : ℝ} (ha : |a| ≤ 2 ^ k) (hb : |b| ≤ 2 ^ k) (t0 : 0 ≤ t) (t1 : t ≤ 1) :
    |lerp L a b t| ≤ 2 ^ k := by
  rw [abs_le]
  refine ⟨?_, lerp_le L hk ha hb t0 t1⟩
  have := lerp_le L hk (a := -a) (b := -b) (by rwa [abs_neg]) (by rwa [abs_neg]) t0 t1
  rw [lerp_neg] at this; linarith

theorem rep_fma (L : Level) (a b c : ℝ) : Rep (fma L a b c) := by
  unfold fma add; split <;> exact rep_fl _

theorem lerp_zero (L : Level) {a b : ℝ} (ha : Rep a) : lerp L a b 0 = a := by
  unfold lerp fma add mul
  rw [zero_mul, fl_zero, zero_add, fl_rep ha]; simp

/-! ## InterpHermite -/

/-- A binary32 number is a multiple of its last place. -/
theorem rep_multiple {x : ℝ} (h : Rep x) : ∃ n : ℤ, |n| ≤ 2 ^ 24 ∧ x = n * 2 ^ lastPlace x := by
  refine ⟨roundEven (x / 2 ^ lastPlace x), ?_, by rw [← fl, fl_rep h]⟩
  have h := abs_div_lt x
  have hp := two_zpow_pos (lastPlace x)
  have h1 : |x / 2 ^ lastPlace x| ≤ 2 ^ 24 := by rw [abs_div, abs_of_pos hp]; exact h.le
  rw [abs_le] at h1 ⊢
  exact ⟨le_roundEven (by norm_num at h1 ⊢; exact h1.1), roundEven_le (by norm_num at h1 ⊢; exact h1.2)⟩

/-- Scaling by a power of two is exact unless the result is too small. -/
theorem rep_scale {x : ℝ} (h : Rep x) {k j : ℤ} (hx : 2 ^ j ≤ |x|) (hj : -149 ≤ j - 23 + k) : Rep (x * 2 ^ k) := by
  obtain ⟨n, hn, e⟩ := rep_multiple h
  refine rep_mul_pow ⟨n, lastPlace x, hn, ?_, e⟩
  have := le_lastPlace hx
  omega

/-- A binary32 number of at least `2^j` is a multiple of `2^(j-23)`. -/
theorem rep_grid {x : ℝ} (h : Rep x) {j : ℤ} (hx : 2 ^ j ≤ |x|) : ∃ n : ℤ, x = n * 2 ^ (j - 23) := by
  obtain ⟨n, hn, e⟩ := rep_multiple h
  have hl := le_lastPlace hx
  refine ⟨n * 2 ^ (lastPlace x - (j - 23)).toNat, ?_⟩
  push_cast
  rw [mul_assoc, ← zpow_natCast, ← zpow_add₀ (by norm_num : (2 : ℝ) ≠ 0), Int.toNat_of_nonneg (by omega)]
  rw [show lastPlace x - (j - 23) + (j - 23) = lastPlace x by ring]
  exact e

theorem rep_three_sub {t : ℝ} (ht : Rep t) (h : 1 / 2 ≤ t) (h1 : t ≤ 1) : Rep (3 - t * 2) := by
  obtain ⟨n, e⟩ := rep_grid ht (j := -1) (by rw [abs_of_nonneg (by linarith)]; norm_num; linarith)
  norm_num at e
  have n0 : (2 ^ 23 : ℝ) ≤ n := by rw [e] at h; norm_num at h ⊢; linarith
  have n1 : (n : ℝ) ≤ 2 ^ 24 := by rw [e] at h1; norm_num at h1 ⊢; linarith
  refine ⟨3 * 2 ^ 23 - n, -23, ?_, by norm_num, ?_⟩
  · have a : (2 ^ 23 : ℤ) ≤ n := by exact_mod_cast n0
    have b : n ≤ (2 ^ 24 : ℤ) := by exact_mod_cast n1
    rw [abs_le]; constructor <;> omega
  · rw [e]; push_cast; norm_num; ring

/-- The two ways of computing `3 - 2 t` agree. -/
theorem fnma_eq (L : Level) {t : ℝ} (ht : Rep t) : fnma L t 2 3 = fl (3 - t * 2) := by
  unfold fnma sub mul
  have : fl (t * 2) = t * 2 := fl_rep (by have := rep_mul_pow_nonneg ht (k := 1) (by norm_num); simpa using this)
  rw [this]
  split
  · congr 1; ring
  · rfl

theorem hermite_nonneg (L : Level) {t : ℝ} (ht : Rep t) (_t0 : 0 ≤ t) (t1 : t ≤ 1) : 0 ≤ interpHermite L t := by
  unfold interpHermite
  rw [fnma_eq L ht]
  have hs : 0 ≤ mul t t := le_fl rep_zero (mul_self_nonneg t)
  have hq : 1 ≤ fl (3 - t * 2) := le_fl rep_one (by linarith)
  exact le_fl rep_zero (mul_nonneg hs (by linarith))

theorem hermite_le (L : Level) {t : ℝ} (ht : Rep t) (t0 : 0 ≤ t) (t1 : t ≤ 1) : interpHermite L t ≤ 1 := by
  unfold interpHermite
  rw [fnma_eq L ht]
  have hs : 0 ≤ mul t t := le_fl rep_zero (mul_self_nonneg t)
  by_cases h : 1 / 2 ≤ t
  · rw [fl_rep (rep_three_sub ht h t1)]
    have he := fl_err_le (x := t * t) (k := 0) (by norm_num) (by rw [abs_of_nonneg (mul_self_nonneg t)]; norm_num; nlinarith)
    have he' : mul t t ≤ t * t + 2 ^ (0 - 25 : ℤ) := by unfold mul; linarith [(abs_le.mp he).2]
    have := fl_le_pow (x := mul t t * (3 - t * 2)) (k := 0) (by norm_num) ?_
    · simpa [mul] using this
    · norm_num at he' ⊢
      have h3 : t * t * (3 - t * 2) ≤ 1 := by nlinarith [mul_nonneg (sq_nonneg (1 - t)) (by linarith : (0:ℝ) ≤ 1 + 2 * t)]
      nlinarith
  · push Not at h
    have hq : fl (3 - t * 2) ≤ 3 := fl_le rep_three (by linarith)
    have hq0 : 0 ≤ fl (3 - t * 2) := le_fl rep_zero (by linarith)
    have hs' : mul t t ≤ 1 / 4 := fl_le ⟨1, -2, by norm_num, by norm_num, by norm_num⟩ (by nlinarith)
    exact fl_le rep_one (by nlinarith)

theorem hermite_zero (L : Level) : interpHermite L 0 = 0 := by
  unfold interpHermite mul; rw [mul_zero, fl_zero, zero_mul, fl_zero]

/-- The fraction of a coordinate. -/
theorem fract_mem (x : ℝ) : Rep (sub x (⌊x⌋ : ℤ)) ∧ 0 ≤ sub x (⌊x⌋ : ℤ) ∧ sub x (⌊x⌋ : ℤ) ≤ 1 := by
  refine ⟨rep_fl _, fl_mem rep_zero rep_one ⟨?_, ?_⟩⟩
  · linarith [Int.floor_le x]
  · linarith [Int.lt_floor_add_one x]

theorem weight_mem (L : Level) (x : ℝ) : 0 ≤ interpHermite L (sub x (⌊x⌋ : ℤ)) ∧ interpHermite L (sub x (⌊x⌋ : ℤ)) ≤ 1 := by
  obtain ⟨h, a, b⟩ := fract_mem x
  exact ⟨hermite_nonneg L h a b, hermite_le L h a b⟩

/-! ## Interpolation -/

theorem abs_interp_le (L : Level) {k : ℤ} (hk : -125 ≤ k) (ts : List ℝ) : ∀ f : List Bool → ℝ, (∀ bs, |f bs| ≤ 2 ^ k) →
    (∀ t ∈ ts, 0 ≤ t ∧ t ≤ 1) → |interp L f ts| ≤ 2 ^ k := by
  induction ts with
  | nil => intro f hf _; exact hf []
  | cons t ts ih =>
    intro f hf ht
    refine ih _ (fun bs => abs_lerp_le L hk (hf _) (hf _) (ht t (by simp)).1 (ht t (by simp)).2) (fun t h => ht t (by simp [h]))

theorem abs_valueCoordF (seed : I32) (ps : List I32) : |valueCoordF seed ps| ≤ valueBounds := by
  have hr : Rep valueBounds := by
    have := rep_pow (e := 31) (by norm_num)
    norm_num at this; exact this
  have h1 := BitVec.le_toInt (valueCoord seed ps)
  have h2 := BitVec.toInt_lt (x := valueCoord seed ps)
  have h1' : (-2147483648 : ℝ) ≤ ((valueCoord seed ps).toInt : ℝ) := by
    have : (-2147483648 : ℤ) ≤ (valueCoord seed ps).toInt := by simpa using h1
    exact_mod_cast this
  have h2' : ((valueCoord seed ps).toInt : ℝ) ≤ 2147483648 := by
    have : (valueCoord seed ps).toInt ≤ (2147483648 : ℤ) := by have := h2; norm_num at this; omega
    exact_mod_cast this
  rw [abs_le]
  exact fl_mem (rep_neg hr) hr ⟨h1', h2'⟩

theorem abs_valueRaw (L : Level) (seed : I32) (x : Pos) : |valueRaw L seed x| ≤ valueBounds := by
  have h := abs_interp_le L (k := 31) (by norm_num) (x.map fun x => interpHermite L (sub x (⌊x⌋ : ℤ)))
    (fun bs => valueCoordF seed (corner x bs)) (fun bs => by have := abs_valueCoordF seed (corner x bs); norm_num [valueBounds] at this ⊢; exact this)
    (by intro t ht; obtain ⟨x, _, rfl⟩ := List.mem_map.mp ht; exact weight_mem L x)
  unfold valueRaw
  norm_num [valueBounds] at h ⊢; exact h

theorem interp_zero (L : Level) (ts : List ℝ) (h0 : ∀ t ∈ ts, t = 0) : ∀ f : List Bool → ℝ, (∀ bs, Rep (f bs)) →
    interp L f ts = f (List.replicate ts.length false) := by
  induction ts with
  | nil => intro f _; rfl
  | cons t ts ih =>
    intro f hf
    have ht := h0 t (by simp); subst ht
    unfold interp
    have e : (fun bs => lerp L (f (false :: bs)) (f (true :: bs)) 0) = fun bs => f (false :: bs) := funext fun bs => lerp_zero L (hf _)
    rw [e, ih (fun t h => h0 t (by simp [h])) _ (fun bs => hf _)]
    simp [List.replicate_succ]

/-! ## ScaleOutput -/

theorem rep_valueBounds : Rep valueBounds := by
  have := rep_pow (e := 31) (by norm_num)
  norm_num at this; exact this

/-- `1 / (nativeMax - nativeMin)` and its product with the scale are exact for the value noises. -/
theorem value_factor {s : ℝ} (hs : Rep (s / 2 ^ 32)) :
    mul (fl (1 / sub valueBounds (-valueBounds))) s = s / 2 ^ 32 := by
  have e1 : sub valueBounds (-valueBounds) = 2 ^ 32 := by
    unfold sub
    rw [show valueBounds - -valueBounds = (2 : ℝ) ^ (32 : ℤ) by norm_num [valueBounds], fl_rep (rep_pow (by norm_num))]
    norm_num
  have e2 : fl (1 / 2 ^ 32) = 1 / 2 ^ 32 := fl_rep (by have := rep_pow (e := -32) (by norm_num); norm_num at this ⊢; exact this)
  unfold mul
  rw [e1, e2, show 1 / 2 ^ 32 * s = s / 2 ^ 32 by ring, fl_rep hs]

theorem value_shift {v : ℝ} (hv : |v| ≤ valueBounds) : 0 ≤ sub v (-valueBounds) ∧ sub v (-valueBounds) ≤ 2 ^ 32 := by
  have hr : Rep (2 ^ 32) := by have := rep_pow (e := 32) (by norm_num); norm_num at this ⊢; exact this
  have := abs_le.mp hv
  refine fl_mem rep_zero hr ⟨by linarith, ?_⟩
  have : valueBounds = 2147483648 := rfl
  norm_num; linarith

/-- The two ends of the output of `ScaleOutput`. -/
theorem fma_mem (L : Level) {c w s m lo hi : ℝ} (hs : Rep s) (hm : Rep m) (h : min 0 s ≤ c * w ∧ c * w ≤ max 0 s)
    (hlo : lo = min m (add m s)) (hhi : hi = max m (add m s)) : lo ≤ fma L c w m ∧ fma L c w m ≤ hi := by
  have key : ∀ p, min 0 s ≤ p ∧ p ≤ max 0 s → lo ≤ fl (p + m) ∧ fl (p + m) ≤ hi := by
    intro p hp
    rw [hlo, hhi]
    have hm' := fl_rep hm
    rcases le_total 0 s with h0 | h0
    · rw [min_eq_left h0, max_eq_right h0] at hp
      constructor
      · exact (min_le_left _ _).trans (le_fl hm (by linarith))
      · exact le_trans (fl_mono (by linarith : p + m ≤ m + s)) (le_max_right _ _)
    · rw [min_eq_right h0, max_eq_left h0] at hp
      constructor
      · exact (min_le_right _ _).trans (fl_mono (by linarith : m + s ≤ p + m))
      · exact (fl_le hm (by linarith)).trans (le_max_left _ _)
  unfold fma
  split
  · exact key _ h
  · refine key _ (fl_mem ?_ ?_ h)
    · rcases min_choice 0 s with e | e <;> rw [e]; exacts [rep_zero, hs]
    · rcases max_choice 0 s with e | e <;> rw [e]; exacts [rep_zero, hs]

theorem value_scaleOutput (L : Level) (r : Range ℝ) {v : ℝ} (hv : |v| ≤ valueBounds) (hm : Rep r.rangeMin) (hs : Rep r.rangeScale)
    (hf : Rep (r.rangeScale / 2 ^ 32)) :
    min r.rangeMin (add r.rangeMin r.rangeScale) ≤ scaleOutput L r v (-valueBounds) valueBounds ∧
    scaleOutput L r v (-valueBounds) valueBounds ≤ max r.rangeMin (add r.rangeMin r.rangeScale) := by
  unfold scaleOutput
  rw [value_factor hf]
  refine fma_mem L hs hm ?_ rfl rfl
  obtain ⟨h0, h1⟩ := value_shift hv
  have hw : 0 ≤ sub v (-valueBounds) / 2 ^ 32 := by positivity
  have hw1 : sub v (-valueBounds) / 2 ^ 32 ≤ 1 := by rw [div_le_one (by norm_num)]; exact h1
  rw [show r.rangeScale / 2 ^ 32 * sub v (-valueBounds) = r.rangeScale * (sub v (-valueBounds) / 2 ^ 32) by ring]
  rcases le_total 0 r.rangeScale with h | h
  · rw [min_eq_left h, max_eq_right h]; exact ⟨mul_nonneg h hw, by nlinarith⟩
  · rw [min_eq_right h, max_eq_left h]; exact ⟨by nlinarith, mul_nonpos_of_nonpos_of_nonneg h hw⟩

end
end FastNoise.F32
