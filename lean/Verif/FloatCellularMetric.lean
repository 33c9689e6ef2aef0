import Verif.FloatCellularAxis
import Verif.FloatCellularSpec
/-! # Cellular noise in binary32: the metrics -/
namespace FastNoise.FloatCellular
open FastNoise.Hash FastNoise.Num FastNoise.Basic FastNoise.F32
open FastNoise.Cellular (Cfg Tab tab nested cellHash normSq)

/-! ## Sum of squares: relative error -/

/-- One step. -/
theorem sq_step (L : Level) {s S a b t : ℝ} (hS : 0 ≤ S) (ha : 0 ≤ a) (ha1 : a ≤ 1 / 4) (hb : 0 ≤ b) (hb1 : b ≤ 2 ^ (-140 : ℤ)) (h : |s - S| ≤ a * S + b) :
    |F32.fma L t t s - (S + t ^ 2)| ≤ (a + 3 / 2 ^ 24) * (S + t ^ 2) + (b + 2 ^ (-147 : ℤ)) := by
  have ht : 0 ≤ t ^ 2 := sq_nonneg t
  have e2 : t * t = t ^ 2 := by ring
  have h150 : (2 : ℝ) ^ (-147 : ℤ) = 8 * 2 ^ (-150 : ℤ) := by norm_num
  have h140 : (2 : ℝ) ^ (-140 : ℤ) = 1024 * 2 ^ (-150 : ℤ) := by norm_num
  rw [h140] at hb1
  obtain ⟨z, hz⟩ : ∃ z : ℝ, z = 2 ^ (-150 : ℤ) := ⟨_, rfl⟩
  have hz0 : 0 < z := by rw [hz]; positivity
  obtain ⟨u, hu⟩ : ∃ u : ℝ, u = 1 / 2 ^ 24 := ⟨_, rfl⟩
  have hu0 : 0 < u := by rw [hu]; positivity
  have hu1 : u ≤ 1 / 4096 := by rw [hu]; norm_num
  rw [← hz] at hb1
  obtain ⟨T, hT⟩ : ∃ T, T = S + t ^ 2 := ⟨_, rfl⟩
  have hST : S ≤ T := by linarith
  have htT : t ^ 2 ≤ T := by linarith
  have hT0 : 0 ≤ T := by linarith
  have key : ∀ v : ℝ, |v - T| ≤ (a + u) * T + (b + z) → |fl v - T| ≤ (a + 3 * u) * T + (b + 8 * z) := by
    intro v hv
    have h1 := fl_mix v
    rw [← hz] at h1
    have hv' : |v| ≤ T + ((a + u) * T + (b + z)) := by
      have : v = T + (v - T) := by ring
      rw [this]; refine (abs_add_le _ _).trans ?_
      rw [abs_of_nonneg hT0]; linarith
    have h2 : |fl v - v| ≤ (T + ((a + u) * T + (b + z))) * u + z := by
      refine h1.trans ?_
      have : |v| / 2 ^ 24 = |v| * u := by rw [hu]; ring
      rw [this]; gcongr
    have e : fl v - T = (fl v - v) + (v - T) := by ring
    rw [e]; refine (abs_add_le _ _).trans ?_
    have h3 : (a + u) * T * u ≤ u * T * 1 := by
      have : (a + u) * T * u = u * T * (a + u) := by ring
      rw [this]; gcongr; linarith
    have h4 : (b + z) * u ≤ z := by
      calc (b + z) * u ≤ (1024 * z + z) * (1 / 4096) := by gcongr
        _ ≤ z := by linarith
    nlinarith
  have goal : |F32.fma L t t s - T| ≤ (a + 3 * u) * T + (b + 8 * z) := by
    rcases fma_cases L t t s with e | e <;> rw [e]
    · apply key
      have : t * t + s - T = s - S := by rw [hT]; ring
      rw [this]
      refine h.trans ?_
      nlinarith [mul_le_mul_of_nonneg_left hST ha, mul_nonneg hu0.le hT0]
    · apply key
      have h1 := fl_mix (t * t)
      rw [← hz, e2, abs_of_nonneg ht] at h1
      have : fl (t * t) + s - T = (fl (t * t) - t ^ 2) + (s - S) := by rw [hT]; ring
      rw [this, e2]
      refine (abs_add_le _ _).trans ?_
      have h2 : t ^ 2 / 2 ^ 24 = u * t ^ 2 := by rw [hu]; ring
      rw [h2] at h1
      nlinarith [mul_le_mul_of_nonneg_left hST ha, mul_le_mul_of_nonneg_left htT hu0.le]
  rw [← hT, h150, ← hz]
  have : (3 : ℝ) / 2 ^ 24 = 3 * u := by rw [hu]; ring
  rw [this]; exact goal

theorem sq_fold (L : Level) (l : List ℝ) : ∀ (j : ℕ) (s S : ℝ), j + l.length ≤ 4 → 0 ≤ S → |s - S| ≤ (j * (3 / 2 ^ 24)) * S + j * 2 ^ (-147 : ℤ) →
    |l.foldl (fun s p => F32.fma L p p s) s - (S + normSq l)| ≤ ((j + l.length : ℕ) * (3 / 2 ^ 24)) * (S + normSq l) + (j + l.length : ℕ) * 2 ^ (-147 : ℤ) := by
  induction l with
  | nil => intro j s S _ _ h; simpa using h
  | cons t l ih =>
    intro j s S hj hS h
    rw [List.length_cons] at hj
    have hj4 : (j : ℝ) ≤ 4 := by exact_mod_cast (by omega : j ≤ 4)
    have st := sq_step L (t := t) hS (a := j * (3 / 2 ^ 24)) (b := j * 2 ^ (-147 : ℤ)) (by positivity)
      (by norm_num; linarith) (by positivity)
      (by
        have : (2 : ℝ) ^ (-140 : ℤ) = 128 * 2 ^ (-147 : ℤ) := by norm_num
        rw [this]; have : (0 : ℝ) < 2 ^ (-147 : ℤ) := by positivity
        nlinarith) h
    have := ih (j + 1) (F32.fma L t t s) (S + t ^ 2) (by omega) (by positivity)
      (by push_cast; convert st using 1; ring)
    rw [List.foldl_cons, Cellular.normSq_cons, List.length_cons]
    have e : S + (t ^ 2 + normSq l) = S + t ^ 2 + normSq l := by ring
    rw [e, show j + (l.length + 1) = j + 1 + l.length by omega]
    exact this

/-- The computed sum of squares, relative to the exact sum of squares of the same numbers. -/
theorem sumSq_err (L : Level) (x : ℝ) (l : List ℝ) (hl : l.length ≤ 3) :
    |l.foldl (fun s p => F32.fma L p p s) (mul x x) - normSq (x :: l)| ≤ normSq (x :: l) / 2 ^ 20 + 2 ^ (-145 : ℤ) := by
  have h0 : |mul x x - x ^ 2| ≤ ((1 : ℕ) * (3 / 2 ^ 24)) * x ^ 2 + (1 : ℕ) * 2 ^ (-147 : ℤ) := by
    have := fl_mix (x * x)
    rw [show x * x = x ^ 2 by ring, abs_of_nonneg (sq_nonneg x)] at this
    unfold mul; rw [show x * x = x ^ 2 by ring]
    have h1 : (2 : ℝ) ^ (-150 : ℤ) ≤ 2 ^ (-147 : ℤ) := by norm_num
    have := sq_nonneg x
    push_cast
    linarith
  have h := sq_fold L l 1 (mul x x) (x ^ 2) (by omega) (sq_nonneg x) h0
  rw [Cellular.normSq_cons]
  refine h.trans ?_
  have hn : ((1 + l.length : ℕ) : ℝ) ≤ 4 := by exact_mod_cast (by omega : 1 + l.length ≤ 4)
  have hs : 0 ≤ x ^ 2 + normSq l := by have := Cellular.normSq_nonneg l; positivity
  have hp : (0 : ℝ) < 2 ^ (-147 : ℤ) := by positivity
  have : (2 : ℝ) ^ (-145 : ℤ) = 4 * 2 ^ (-147 : ℤ) := by norm_num
  rw [this]
  have h1 : ((1 + l.length : ℕ) : ℝ) * (3 / 2 ^ 24) * (x ^ 2 + normSq l) ≤ 4 * (3 / 2 ^ 24) * (x ^ 2 + normSq l) := by gcongr
  have h2 : ((1 + l.length : ℕ) : ℝ) * 2 ^ (-147 : ℤ) ≤ 4 * 2 ^ (-147 : ℤ) := by gcongr
  linarith

/-- Square root of a number known with a small relative error. -/
theorem sqrt_err {s S : ℝ} (hS : 0 ≤ S) (h : |s - S| ≤ S / 2 ^ 20 + 2 ^ (-145 : ℤ)) : |√s - √S| ≤ √S / 2 ^ 20 + 2 ^ (-72 : ℤ) := by
  obtain ⟨r, hr⟩ : ∃ r, r = √S := ⟨_, rfl⟩
  have hr0 : 0 ≤ r := by rw [hr]; exact Real.sqrt_nonneg _
  have hSr : S = r ^ 2 := by rw [hr, Real.sq_sqrt hS]
  rw [← hr, abs_le]
  rw [abs_le] at h
  rw [hSr] at h
  obtain ⟨c, hc⟩ : ∃ c : ℝ, c = 2 ^ (-72 : ℤ) := ⟨_, rfl⟩
  have hc0 : 0 < c := by rw [hc]; positivity
  have hcc : (2 : ℝ) ^ (-145 : ℤ) ≤ c ^ 2 := by rw [hc]; norm_num
  rw [← hc]
  obtain ⟨ε, hε⟩ : ∃ ε : ℝ, ε = 1 / 2 ^ 20 := ⟨_, rfl⟩
  have hε0 : 0 < ε := by rw [hε]; positivity
  have hε1 : ε ≤ 1 := by rw [hε]; norm_num
  have e1 : r / 2 ^ 20 = ε * r := by rw [hε]; ring
  have e2 : r ^ 2 / 2 ^ 20 = ε * r ^ 2 := by rw [hε]; ring
  rw [e1]; rw [e2] at h
  constructor
  · -- lower
    by_cases hn : (1 - ε) * r - c ≤ 0
    · have := Real.sqrt_nonneg s; linarith
    · push Not at hn
      have : (1 - ε) * r - c ≤ √s := by
        apply Real.le_sqrt_of_sq_le
        have h3 : ((1 - ε) * r - c) ^ 2 ≤ ((1 - ε) * r) ^ 2 - c ^ 2 := by nlinarith
        have h4 : ((1 - ε) * r) ^ 2 ≤ (1 - ε) * r ^ 2 := by
          have : ((1 - ε) * r) ^ 2 = (1 - ε) * ((1 - ε) * r ^ 2) := by ring
          rw [this]
          have h5 : 0 ≤ (1 - ε) * r ^ 2 := mul_nonneg (by linarith) (sq_nonneg r)
          nlinarith
        linarith
      linarith
  · have : √s ≤ (1 + ε) * r + c := by
      rw [show (1 + ε) * r + c = √(((1 + ε) * r + c) ^ 2) from (Real.sqrt_sq (by positivity)).symm]
      apply Real.sqrt_le_sqrt
      have h3 : (1 + ε) * r ^ 2 ≤ ((1 + ε) * r) ^ 2 := by
        have : ((1 + ε) * r) ^ 2 = (1 + ε) * ((1 + ε) * r ^ 2) := by ring
        rw [this]
        have h5 : 0 ≤ (1 + ε) * r ^ 2 := by positivity
        nlinarith
      have h6 : 0 ≤ 2 * ((1 + ε) * r) * c := by positivity
      nlinarith
    linarith

/-! ## Vectors -/

/-- Two vectors that differ by at most `δ` in each coordinate, the second one short. -/
abbrev Close (δ : ℝ) : List ℝ → List ℝ → Prop := List.Forall₂ fun a t => |a - t| ≤ δ ∧ |t| ≤ 2

theorem close_len {δ : ℝ} {a t : List ℝ} (h : Close δ a t) : a.length = t.length := h.length_eq

theorem normSq_le_of_close {δ : ℝ} {a t : List ℝ} (h : Close δ a t) : normSq t ≤ 4 * t.length := by
  induction h with
  | nil => simp
  | cons h _ ih =>
    rw [Cellular.normSq_cons, List.length_cons]; push_cast
    have := abs_le.mp h.2
    nlinarith

theorem sq_close {δ : ℝ} (hδ : 0 ≤ δ) {a t : List ℝ} (h : Close δ a t) : |normSq a - normSq t| ≤ t.length * ((4 + δ) * δ) := by
  induction h with
  | nil => simp
  | @cons x y l l' h _ ih =>
    rw [Cellular.normSq_cons, Cellular.normSq_cons, List.length_cons]; push_cast
    have h2 : |x ^ 2 - y ^ 2| ≤ (4 + δ) * δ := by
      have : x ^ 2 - y ^ 2 = (2 * y + (x - y)) * (x - y) := by ring
      rw [this, abs_mul]
      have h3 : |2 * y + (x - y)| ≤ 4 + δ := by
        refine (abs_add_le _ _).trans ?_
        rw [abs_mul, abs_two]; linarith [h.1, h.2]
      exact mul_le_mul h3 h.1 (abs_nonneg _) (by linarith)
    have : x ^ 2 + normSq l - (y ^ 2 + normSq l') = (x ^ 2 - y ^ 2) + (normSq l - normSq l') := by ring
    rw [this]
    refine (abs_add_le _ _).trans ?_
    linarith

theorem norm_close {δ : ℝ} (hδ : 0 ≤ δ) {a t : List ℝ} (h : Close δ a t) : |√(normSq a) - √(normSq t)| ≤ √t.length * δ := by
  have hl := close_len h
  have hd : normSq (List.zipWith (· - ·) a t) ≤ t.length * δ ^ 2 := by
    clear hl
    induction h with
    | nil => simp
    | @cons x y _ _ h _ ih =>
      rw [List.zipWith_cons_cons, Cellular.normSq_cons, List.length_cons]; push_cast
      have : (x - y) ^ 2 ≤ δ ^ 2 := by rw [← sq_abs]; exact pow_le_pow_left₀ (abs_nonneg _) h.1 2
      linarith
  have e : a = List.zipWith (· + ·) t (List.zipWith (· - ·) a t) := by
    apply List.ext_getElem
    · simp [hl]
    · intro i h1 h2; simp
  have hlen : t.length = (List.zipWith (· - ·) a t).length := by simp [hl]
  have e2 : t = List.zipWith (· + ·) a ((List.zipWith (· - ·) a t).map (fun v => v * (-1))) := by
    apply List.ext_getElem
    · simp [hl]
    · intro i h1 h2; simp
  have n2 : normSq ((List.zipWith (· - ·) a t).map (fun v => v * (-1))) = normSq (List.zipWith (· - ·) a t) := by
    rw [Cellular.normSq_smul]; ring
  have hD : √(normSq (List.zipWith (· - ·) a t)) ≤ √t.length * δ := by
    calc √(normSq (List.zipWith (· - ·) a t)) ≤ √(t.length * δ ^ 2) := Real.sqrt_le_sqrt hd
      _ = √t.length * δ := by rw [Real.sqrt_mul (by positivity), Real.sqrt_sq hδ]
  have u1 : √(normSq a) ≤ √(normSq t) + √(normSq (List.zipWith (· - ·) a t)) := by
    have := (Cellular.normSq_add_le t _ hlen).1
    rw [← e] at this
    rw [← Real.sqrt_sq (by positivity : 0 ≤ √(normSq t) + √(normSq (List.zipWith (· - ·) a t)))]
    exact Real.sqrt_le_sqrt this
  have u2 : √(normSq t) ≤ √(normSq a) + √(normSq (List.zipWith (· - ·) a t)) := by
    have := (Cellular.normSq_add_le a ((List.zipWith (· - ·) a t).map (fun v => v * (-1))) (by simp [hl])).1
    rw [← e2, n2] at this
    rw [← Real.sqrt_sq (by positivity : 0 ≤ √(normSq a) + √(normSq (List.zipWith (· - ·) a t)))]
    exact Real.sqrt_le_sqrt this
  rw [abs_le]; constructor <;> linarith

/-! ## Sums of non-negative terms with absolute error -/

theorem foldl_err (f : ℝ → ℝ → ℝ) (q : ℝ → ℝ) {δ e : ℝ} (he1 : e ≤ 2) (hq : ∀ t, |t| ≤ 2 → 0 ≤ q t ∧ q t ≤ 6)
    (hf : ∀ s a t, |s| ≤ 24 → |t| ≤ 2 → |a - t| ≤ δ → |f s a - (s + q t)| ≤ e) {l l' : List ℝ} (h : Close δ l l') :
    ∀ (j : ℕ) (s S : ℝ), j + l.length ≤ 4 → 0 ≤ S → S ≤ 6 * j → |s - S| ≤ j * e →
      |l.foldl f s - (S + (l'.map q).sum)| ≤ (j + l.length : ℕ) * e := by
  induction h with
  | nil => intro j s S _ _ _ h; simpa using h
  | @cons a t l l' h _ ih =>
    intro j s S hj hS hS1 hs
    rw [List.length_cons] at hj
    have hj3 : (j : ℝ) ≤ 3 := by exact_mod_cast (by omega : j ≤ 3)
    have hj0 : (0 : ℝ) ≤ j := by positivity
    have hq' := hq t h.2
    have hs24 : |s| ≤ 24 := by
      have : s = S + (s - S) := by ring
      rw [this]; refine (abs_add_le _ _).trans ?_
      rw [abs_of_nonneg hS]
      nlinarith
    have h1 := hf s a t hs24 h.2 h.1
    have := ih (j + 1) (f s a) (S + q t) (by omega) (by linarith) (by push_cast; linarith)
      (by
        have e1 : f s a - (S + q t) = (f s a - (s + q t)) + (s - S) := by ring
        rw [e1]; refine (abs_add_le _ _).trans ?_
        push_cast; linarith)
    rw [List.foldl_cons, List.map_cons, List.sum_cons, List.length_cons]
    rw [show S + (q t + (l'.map q).sum) = S + q t + (l'.map q).sum by ring, show j + (l.length + 1) = j + 1 + l.length by omega]
    exact this

theorem foldPlus_err {δ : ℝ} (hδ1 : δ ≤ 1 / 2) {l l' : List ℝ} (h : Close δ l l') (hl : l.length ≤ 3) :
    |calcDistance.foldPlusF l - (l'.map fun t => |t|).sum| ≤ l.length * (δ + 2 ^ (-21 : ℤ)) ∧ (l'.map fun t => |t|).sum ≤ 2 * l.length := by
  have hp : (2 : ℝ) ^ (-21 : ℤ) = 1 / 2097152 := by norm_num
  rw [hp]
  induction h with
  | nil => simp [calcDistance.foldPlusF]
  | @cons a t l l' h ht ih =>
    obtain ⟨i1, i2⟩ := ih (by rw [List.length_cons] at hl; omega)
    have habs : abs (|a| - |t|) ≤ δ := (abs_abs_sub_abs_le _ _).trans h.1
    have hδ0 : 0 ≤ δ := (abs_nonneg _).trans h.1
    have hs0 : 0 ≤ (l'.map fun t => |t|).sum := List.sum_nonneg (by intro x hx; obtain ⟨y, _, rfl⟩ := List.mem_map.mp hx; exact abs_nonneg _)
    rw [List.map_cons, List.sum_cons, List.length_cons]; push_cast
    refine ⟨?_, by linarith [h.2]⟩
    cases l with
    | nil =>
      cases ht
      simp only [calcDistance.foldPlusF, List.map_nil, List.sum_nil, List.length_nil]
      push_cast
      have : |a| - (|t| + 0) = |a| - |t| := by ring
      rw [this]; linarith
    | cons b l =>
      show |add |a| (calcDistance.foldPlusF (b :: l)) - _| ≤ _
      obtain ⟨V, hV⟩ : ∃ V, V = calcDistance.foldPlusF (b :: l) := ⟨_, rfl⟩
      rw [← hV] at i1 ⊢
      have hlen : (((b :: l).length : ℕ) : ℝ) ≤ 2 := by
        rw [List.length_cons, List.length_cons] at hl
        rw [List.length_cons]; exact_mod_cast (by omega : l.length + 1 ≤ 2)
      have i1' := abs_le.mp i1
      have hle : (((b :: l).length : ℕ) : ℝ) * (δ + 1 / 2097152) ≤ 2 * (δ + 1 / 2097152) := by gcongr
      have ha := abs_le.mp habs
      have h2 := h.2
      have hat := abs_nonneg t
      have haa := abs_nonneg a
      have er := fl_err_le (k := 3) (by norm_num) (x := |a| + V) (by norm_num; rw [abs_le]; constructor <;> linarith)
      unfold add
      rw [abs_le] at er ⊢
      norm_num at er
      constructor <;> linarith

theorem foldMax_close {δ : ℝ} {l l' : List ℝ} (h : Close δ l l') : ∀ s S : ℝ, |s - S| ≤ δ →
    |l.foldl (fun m p => max |p| m) s - l'.foldl (fun m p => max |p| m) S| ≤ δ := by
  induction h with
  | nil => intro s S h; exact h
  | @cons a t l l' h _ ih =>
    intro s S hs
    rw [List.foldl_cons, List.foldl_cons]
    apply ih
    have habs : abs (|a| - |t|) ≤ δ := (abs_abs_sub_abs_le _ _).trans h.1
    exact (abs_max_sub_max_le_max _ _ _ _).trans (max_le habs hs)

theorem foldMax_eq (l : List ℝ) : ∀ s : ℝ, l.foldl (fun m p => max |p| m) s = max s ((l.map fun t => |t|).foldr max 0) ∨ s < 0 := by
  induction l with
  | nil => intro s; by_cases h : s < 0
           · exact Or.inr h
           · left; simp [max_eq_left (not_lt.mp h)]
  | cons a l ih =>
    intro s
    by_cases h : s < 0
    · exact Or.inr h
    · left
      rcases ih (max |a| s) with e | e
      · rw [List.foldl_cons, e, List.map_cons, List.foldr_cons, ← max_assoc, max_comm s |a|]
      · exact absurd e (not_lt.mpr ((abs_nonneg a).trans (le_max_left _ _)))

/-! ## All metrics -/

/-- The quantity the metric measures: the loops compare squared lengths for the Euclidean metric when `doSqrt` is off. -/
noncomputable def measured (fn : DistFn) (doSqrt : Bool) (d : ℝ) : ℝ := if fn = .euclidean ∧ doSqrt = false then √d else d

theorem measured_mono (fn : DistFn) (doSqrt : Bool) : Monotone (measured fn doSqrt) := by
  intro a b h
  unfold measured
  split
  · exact Real.sqrt_le_sqrt h
  · exact h

theorem calc_err (A : Chip) (doSqrt : Bool) (fn : DistFn) (hfn : fn ≠ .minkowski) (mp : ℝ) {δ : ℝ} (hδ : 0 ≤ δ) (hδ1 : δ ≤ 1 / 4) {x : ℝ} {l t : List ℝ}
    (h : Close δ (x :: l) t) (h1 : 1 ≤ l.length) (h3 : l.length ≤ 3) :
    |measured fn doSqrt (calcDistance A doSqrt fn mp x l) - metric fn t| ≤ metricErr fn t.length δ := by
  have hlen : t.length = l.length + 1 := by have := close_len h; simpa using this.symm
  have hn4 : (t.length : ℝ) ≤ 4 := by exact_mod_cast (by omega : t.length ≤ 4)
  have hn0 : (0 : ℝ) ≤ t.length := by positivity
  have hnt : normSq t = (t.map fun t => t ^ 2).sum := rfl
  have sq := sumSq_err A.toLevel x l h3
  have hS0 := Cellular.normSq_nonneg (x :: l)
  have hc := sq_close hδ h
  have hn := normSq_le_of_close h
  have hcl := norm_close hδ h
  obtain ⟨N, hN⟩ : ∃ N, N = normSq (x :: l) := ⟨_, rfl⟩
  rw [← hN] at sq hS0 hc hcl
  have hδδ : (4 + δ) * δ ≤ 1.0625 := by norm_num; nlinarith
  have hcb : (t.length : ℝ) * ((4 + δ) * δ) ≤ 4 * 1.0625 := by
    have : 0 ≤ (4 + δ) * δ := by positivity
    gcongr
  have hSb : N ≤ 20.25 := by
    have := abs_le.mp hc; norm_num at hcb ⊢; linarith
  cases fn with
  | minkowski => exact absurd rfl hfn
  | euclideanSquared =>
    simp only [measured, calcDistance, metric, metricErr, reduceCtorEq, false_and, if_false]
    rw [← hnt]
    rw [abs_le] at *
    norm_num at sq hSb ⊢
    constructor <;> linarith
  | euclidean =>
    obtain ⟨s, hs⟩ : ∃ s, s = l.foldl (fun s p => F32.fma A.toLevel p p s) (mul x x) := ⟨_, rfl⟩
    rw [← hs] at sq
    have hr := sqrt_err hS0 sq
    have hR : √N ≤ 4.5 := by
      rw [show (4.5 : ℝ) = √(4.5 ^ 2) from (Real.sqrt_sq (by norm_num)).symm]
      exact Real.sqrt_le_sqrt (by norm_num at hSb ⊢; linarith)
    have hR0 := Real.sqrt_nonneg N
    have h72 : (2 : ℝ) ^ (-72 : ℤ) ≤ 2 ^ (-40 : ℤ) := by norm_num
    have hval : |measured .euclidean doSqrt (calcDistance A doSqrt .euclidean mp x l) - √s| ≤ 2 ^ (-22 : ℤ) := by
      cases doSqrt with
      | false => simp only [measured, calcDistance, and_self, if_true, ← hs, if_false, Bool.false_eq_true]; simp
      | true =>
        simp only [measured, calcDistance, if_true, ← hs, Bool.true_eq_false, and_false, if_false]
        have : |√s| ≤ 2 ^ (3 : ℤ) := by
          rw [abs_of_nonneg (Real.sqrt_nonneg s)]
          rw [abs_le] at hr
          norm_num at hr h72 hR ⊢; linarith
        exact fl_err_le (k := 3) (by norm_num) this
    simp only [metric, metricErr, ← hnt]
    rw [abs_le] at *
    norm_num at hr h72 hval hR ⊢
    constructor <;> linarith
  | manhattan =>
    simp only [measured, calcDistance, metric, metricErr, reduceCtorEq, false_and, if_false]
    cases h with
    | @cons _ t0 _ t' h0 ht =>
      obtain ⟨i1, i2⟩ := foldPlus_err (by linarith) ht h3
      have hl3 : (l.length : ℝ) ≤ 3 := by exact_mod_cast h3
      have habs := abs_le.mp ((abs_abs_sub_abs_le _ _).trans h0.1)
      have hp : (2 : ℝ) ^ (-21 : ℤ) = 1 / 2097152 := by norm_num
      rw [hp] at i1 ⊢
      have hle : (l.length : ℝ) * (δ + 1 / 2097152) ≤ 3 * (δ + 1 / 2097152) := by gcongr
      have i1' := abs_le.mp i1
      have hs0 : 0 ≤ (t'.map fun t => |t|).sum := List.sum_nonneg (by intro x hx; obtain ⟨y, _, rfl⟩ := List.mem_map.mp hx; exact abs_nonneg _)
      have h02 := h0.2
      have ht0 := abs_nonneg t0
      have hx0 := abs_nonneg x
      have er := fl_err_le (k := 4) (by norm_num) (x := |x| + calcDistance.foldPlusF l) (by norm_num; rw [abs_le]; constructor <;> linarith)
      cases l with
      | nil => simp at h1
      | cons b l =>
        simp only [List.map_cons, List.sum_cons]
        rw [hlen]
        push_cast at *
        unfold add
        rw [abs_le] at er ⊢
        norm_num at er
        constructor <;> linarith
  | hybrid =>
    simp only [measured, calcDistance, metric, metricErr, reduceCtorEq, false_and, if_false]
    have hδ5 : (5 + δ) * δ ≤ 1.3125 := by norm_num; nlinarith
    have hδ50 : 0 ≤ (5 + δ) * δ := by positivity
    have term : ∀ a t : ℝ, |t| ≤ 2 → |a - t| ≤ δ → abs (F32.fma A.toLevel a a |a| - (t ^ 2 + |t|)) ≤ (5 + δ) * δ + 2 ^ (-21 : ℤ) ∧ abs (F32.fma A.toLevel a a |a|) ≤ 7.5 := by
      intro a t ht ha
      have h2 : |a ^ 2 - t ^ 2| ≤ (4 + δ) * δ := by
        have := sq_close hδ (a := [a]) (t := [t]) (List.Forall₂.cons ⟨ha, ht⟩ List.Forall₂.nil)
        simpa using this
      have habs := abs_le.mp ((abs_abs_sub_abs_le _ _).trans ha)
      have h2' := abs_le.mp h2
      have ht2 : t ^ 2 ≤ 4 := by have := abs_le.mp ht; nlinarith
      have ha0 := abs_nonneg a
      have ha2 := sq_nonneg a
      have e2 : a * a = a ^ 2 := by ring
      have hfin : abs (F32.fma A.toLevel a a |a| - (a ^ 2 + |a|)) ≤ 2 ^ (-21 : ℤ) := by
        have p8 : abs (a ^ 2 + |a|) ≤ 2 ^ (3 : ℤ) := by rw [abs_of_nonneg (by positivity)]; norm_num at hδδ ⊢; linarith
        rcases fma_cases A.toLevel a a |a| with e | e <;> rw [e, e2]
        · have := fl_err_le (k := 3) (by norm_num) p8
          refine this.trans ?_; norm_num
        · have m := fl_err_le (k := 3) (by norm_num) (x := a ^ 2) (by rw [abs_of_nonneg ha2]; norm_num at hδδ ⊢; linarith)
          norm_num at m
          have m' := abs_le.mp m
          have := fl_err_le (k := 3) (by norm_num) (x := fl (a ^ 2) + |a|) (by norm_num at hδδ ⊢; rw [abs_le]; constructor <;> linarith)
          norm_num at this
          rw [abs_le] at this ⊢
          norm_num
          constructor <;> linarith
      have hfin' := abs_le.mp hfin
      norm_num at hfin' hδδ
      constructor
      · rw [abs_le]; norm_num; constructor <;> linarith
      · rw [abs_le]; norm_num; constructor <;> linarith
    cases h with
    | @cons _ t0 _ t' h0 ht =>
      have hq : ∀ t : ℝ, |t| ≤ 2 → 0 ≤ t ^ 2 + |t| ∧ t ^ 2 + |t| ≤ 6 := by
        intro t ht
        have := abs_le.mp ht
        exact ⟨by positivity, by nlinarith⟩
      have hf : ∀ s a t : ℝ, |s| ≤ 24 → |t| ≤ 2 → |a - t| ≤ δ → abs (add s (F32.fma A.toLevel a a |a|) - (s + (t ^ 2 + |t|))) ≤ (5 + δ) * δ + 2 ^ (-19 : ℤ) := by
        intro s a t hs ht ha
        obtain ⟨t1, t2⟩ := term a t ht ha
        have er := fl_err_le (k := 5) (by norm_num) (x := s + F32.fma A.toLevel a a |a|) (by
          refine (abs_add_le _ _).trans ?_; norm_num at t2 ⊢; linarith)
        unfold add
        rw [abs_le] at *
        norm_num at er t1 ⊢
        constructor <;> linarith
      have st := term x t0 h0.2 h0.1
      have := foldl_err (fun s a => add s (F32.fma A.toLevel a a |a|)) (fun t => t ^ 2 + |t|) (e := (5 + δ) * δ + 2 ^ (-19 : ℤ)) (by norm_num at hδ5 ⊢; linarith) hq hf ht
        1 (F32.fma A.toLevel x x |x|) (t0 ^ 2 + |t0|) (by omega) (hq t0 h0.2).1 (by have := (hq t0 h0.2).2; push_cast; linarith)
        (by refine st.1.trans ?_; norm_num)
      rw [List.map_cons, List.sum_cons, hlen, show l.length + 1 = 1 + l.length by omega]
      exact this
  | maxAxis =>
    simp only [measured, calcDistance, metric, metricErr, reduceCtorEq, false_and, if_false]
    cases h with
    | @cons _ t0 _ t' h0 ht =>
      have h1 := foldMax_close ht |x| |t0| ((abs_abs_sub_abs_le _ _).trans h0.1)
      rcases foldMax_eq t' |t0| with e | e
      · rw [e] at h1
        rw [List.map_cons, List.foldr_cons]; exact h1
      · exact absurd e (not_lt.mpr (abs_nonneg _))

end FastNoise.FloatCellular
