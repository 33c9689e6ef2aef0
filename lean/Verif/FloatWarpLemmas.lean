import Verif.FloatWarp
import Verif.FractalLemmas
import Verif.FloatErrLemmas
import Verif.FloatModifiersLemmas
/-! # Lemmas: rounding in the gradient domain warp -/
namespace FastNoise.F32
open FastNoise.Hash FastNoise.Num FastNoise.Basic FastNoise.Lattice
open FastNoise.Fractal (corners field fieldMax contrib contrib_snoc corners_length weighted_eq_interp field_range fieldMax_pos)

noncomputable section

theorem fl_mixed (x : ℝ) : |fl x - x| ≤ |x| * (2 * U) + U * U := by
  have hU := U_pos
  by_cases h : 2 ^ (-126 : ℤ) ≤ |x|
  · have := fl_rel h
    have e : |x| / 2 ^ 24 = |x| * (2 * U) := by unfold U; ring
    nlinarith
  · push Not at h
    have := fl_err_le (x := x) (k := -125) (by norm_num) (h.le.trans (zpow_le_zpow_right₀ (by norm_num) (by norm_num)))
    have e : (2 : ℝ) ^ ((-125 : ℤ) - 25) ≤ U * U := by unfold U; norm_num
    have := abs_nonneg x
    nlinarith [mul_nonneg this hU.le]

theorem side_mem {t : ℝ} (t0 : 0 ≤ t) (t1 : t ≤ 1) (b : Bool) : 0 ≤ side t b ∧ side t b ≤ 1 := by
  cases b
  · exact fl_mem rep_zero rep_one ⟨by linarith, by linarith⟩
  · exact ⟨t0, t1⟩

theorem rep_side {t : ℝ} (h : Rep t) (b : Bool) : Rep (side t b) := by
  cases b
  · exact rep_fl _
  · exact h

theorem foldl_snoc_mul (ts : List ℝ) (t : ℝ) (bs : List Bool) (b : Bool) (h : ts.length = bs.length) :
    (List.zipWith side (ts ++ [t]) (bs ++ [b])) = List.zipWith side ts bs ++ [side t b] := by
  rw [List.zipWith_append h]; rfl

theorem contribF_nil (bs : List Bool) : contribF [] bs = 1 := rfl

theorem contribF_snoc {ts : List ℝ} {t : ℝ} (ht : Rep t) (bs : List Bool) (b : Bool) (h : ts.length = bs.length) :
    contribF (ts ++ [t]) (bs ++ [b]) = mul (contribF ts bs) (side t b) := by
  unfold contribF
  rw [foldl_snoc_mul ts t bs b h]
  cases e : List.zipWith side ts bs with
  | nil => simp only [List.nil_append, List.foldl_nil]; unfold mul; rw [one_mul, fl_rep (rep_side ht b)]
  | cons a r => simp [List.foldl_append]

/-- A float weight and the exact one. -/
def Close (p : ℝ × ℝ) : Prop := Rep p.1 ∧ 0 ≤ p.1 ∧ p.1 ≤ 1 ∧ 0 ≤ p.2 ∧ p.2 ≤ 1 ∧ |p.1 - p.2| ≤ 7 * U

theorem contribF_nonneg (ts : List (ℝ × ℝ)) : (∀ p ∈ ts, Close p) → ∀ bs : List Bool, bs.length = ts.length → 0 ≤ contribF (ts.map (·.1)) bs := by
  induction ts using List.reverseRecOn with
  | nil => intro _ bs _; simp [contribF]
  | append_singleton ts p ih =>
    intro h bs hb
    obtain ⟨bs', b, rfl⟩ : ∃ bs' b, bs = bs' ++ [b] := by
      rcases List.eq_nil_or_concat bs with rfl | ⟨l, a, rfl⟩
      · simp at hb
      · exact ⟨l, a, by simp⟩
    have hl : bs'.length = ts.length := by simpa using hb
    have hp := h p (by simp)
    rw [List.map_append, List.map_singleton, contribF_snoc hp.1 _ _ (by simp [hl])]
    exact le_fl rep_zero (mul_nonneg (ih (fun q hq => h q (by simp [hq])) bs' hl) (side_mem hp.2.1 hp.2.2.1 b).1)

theorem contrib_nonneg (ts : List (ℝ × ℝ)) : (∀ p ∈ ts, Close p) → ∀ bs : List Bool, bs.length = ts.length → 0 ≤ contrib (ts.map (·.2)) bs := by
  induction ts using List.reverseRecOn with
  | nil => intro _ bs _; simp [contrib]
  | append_singleton ts p ih =>
    intro h bs hb
    obtain ⟨bs', b, rfl⟩ : ∃ bs' b, bs = bs' ++ [b] := by
      rcases List.eq_nil_or_concat bs with rfl | ⟨l, a, rfl⟩
      · simp at hb
      · exact ⟨l, a, by simp⟩
    have hl : bs'.length = ts.length := by simpa using hb
    obtain ⟨-, -, -, h2, h3, -⟩ := h p (by simp)
    rw [List.map_append, List.map_singleton, contrib_snoc _ _ _ _ (by simp [hl])]
    refine mul_nonneg (ih (fun q hq => h q (by simp [hq])) bs' hl) ?_
    cases b
    · simp; linarith
    · simpa using h2

theorem contrib_sum (ts : List ℝ) : ((corners ts.length).map (contrib ts)).sum = 1 := by
  have := weighted_eq_interp ts fun _ => 1
  simp only [mul_one] at this
  rw [this]
  have key : ∀ ts : List ℝ, Lattice.interp (fun _ => 1) ts = 1 := by
    intro ts
    induction ts with
    | nil => rfl
    | cons t ts ih =>
      rw [Lattice.interp]
      have : (fun bs : List Bool => Num.lerp (1 : ℝ) 1 t) = fun _ => 1 := by funext; simp [Num.lerp, Num.fma]
      rw [this]; exact ih
  exact key ts

theorem corners_card : ∀ n, (corners n).length = 2 ^ n
  | 0 => rfl
  | n + 1 => by rw [corners, List.length_append, List.length_map, List.length_map, corners_card n, pow_succ]; ring

theorem corners_sum (n : Nat) (g : List Bool → ℝ) : ((corners (n + 1)).map g).sum = ((corners n).map fun bs => g (bs ++ [false]) + g (bs ++ [true])).sum := by
  rw [corners, List.map_append, List.sum_append, List.map_map, List.map_map, List.sum_map_add]; rfl

/-- One corner, split along the next axis. -/
theorem split_err {p q t s : ℝ} (hp : 0 ≤ p) (hq : 0 ≤ q) (h : Close (t, s)) :
    |mul p (side t false) - q * (1 - s)| + |mul p (side t true) - q * s| ≤ |p - q| * (1 + 4 * U) + q * (17 * U + 4 * U * U) + 2 * U * U := by
  obtain ⟨hr, t0, t1, s0, s1, hts⟩ := h
  simp only at hr t0 t1 s0 s1 hts
  have hU := U_pos
  have hU' := U_small
  have m1 := fl_mixed (p * side t false)
  have m2 := fl_mixed (p * side t true)
  have hc := side_mem t0 t1 false
  have hsub : |sub 1 t - (1 - t)| ≤ U := rnd1 (by rw [abs_of_nonneg (by linarith)]; linarith)
  have e1 : side t false = sub 1 t := rfl
  have e2 : side t true = t := rfl
  rw [e1] at m1 hc ⊢
  rw [e2] at m2 ⊢
  set c := sub 1 t with hcdef
  change |fl (p * c) - q * (1 - s)| + |fl (p * t) - q * s| ≤ _
  have hsb := abs_le.mp hsub
  have htb := abs_le.mp hts
  have hcs : |c - (1 - s)| ≤ 8 * U := by rw [abs_le]; constructor <;> linarith
  have d1 : |p * c - q * (1 - s)| ≤ |p - q| * c + q * (8 * U) := by
    rw [show p * c - q * (1 - s) = (p - q) * c + q * (c - (1 - s)) by ring]
    refine (abs_add_le _ _).trans ?_
    rw [abs_mul, abs_mul, abs_of_nonneg hc.1, abs_of_nonneg hq]
    gcongr
  have d2 : |p * t - q * s| ≤ |p - q| * t + q * (7 * U) := by
    rw [show p * t - q * s = (p - q) * t + q * (t - s) by ring]
    refine (abs_add_le _ _).trans ?_
    rw [abs_mul, abs_mul, abs_of_nonneg t0, abs_of_nonneg hq]
    gcongr
  rw [abs_of_nonneg (mul_nonneg hp hc.1)] at m1
  rw [abs_of_nonneg (mul_nonneg hp t0)] at m2
  have a1 : |fl (p * c) - q * (1 - s)| ≤ |fl (p * c) - p * c| + |p * c - q * (1 - s)| := by
    have := abs_add_le (fl (p * c) - p * c) (p * c - q * (1 - s)); rwa [sub_add_sub_cancel] at this
  have a2 : |fl (p * t) - q * s| ≤ |fl (p * t) - p * t| + |p * t - q * s| := by
    have := abs_add_le (fl (p * t) - p * t) (p * t - q * s); rwa [sub_add_sub_cancel] at this
  have ct : c + t ≤ 1 + U := by linarith
  have hpq : p ≤ q + |p - q| := by have := le_abs_self (p - q); linarith
  have hd := abs_nonneg (p - q)
  have k1 : |p - q| * (c + t) ≤ |p - q| * (1 + U) := mul_le_mul_of_nonneg_left ct hd
  have k2 : p * (c + t) ≤ (q + |p - q|) * (1 + U) := mul_le_mul hpq ct (by linarith [hc.1]) (by linarith)
  have k3 : p * (c + t) * (2 * U) ≤ (q + |p - q|) * (1 + U) * (2 * U) := mul_le_mul_of_nonneg_right k2 (by linarith)
  have k4 : |p - q| * (U * U) ≤ |p - q| * (U / 4) := mul_le_mul_of_nonneg_left (by nlinarith) hd
  nlinarith [mul_nonneg hq hU.le, mul_nonneg hq (mul_nonneg hU.le hU.le)]

theorem weights_err (ts : List (ℝ × ℝ)) : ts.length ≤ 4 → (∀ p ∈ ts, Close p) →
    ((corners ts.length).map fun bs => |contribF (ts.map (·.1)) bs - contrib (ts.map (·.2)) bs|).sum ≤ 18 * ts.length * U := by
  induction ts using List.reverseRecOn with
  | nil => intro _ _; simp [corners, contribF, contrib]
  | append_singleton ts p ih =>
    intro hn h
    have hU := U_pos
    have hU' := U_small
    have hn' : ts.length ≤ 3 := by simp at hn; omega
    have ih := ih (by omega) fun q hq => h q (by simp [hq])
    have hsum : ((corners ts.length).map (contrib (ts.map (·.2)))).sum = 1 := by
      have := contrib_sum (ts.map (·.2)); rwa [List.length_map] at this
    rw [List.length_append, List.length_singleton, corners_sum]
    have step : ∀ bs ∈ corners ts.length, |contribF ((ts ++ [p]).map (·.1)) (bs ++ [false]) - contrib ((ts ++ [p]).map (·.2)) (bs ++ [false])| +
        |contribF ((ts ++ [p]).map (·.1)) (bs ++ [true]) - contrib ((ts ++ [p]).map (·.2)) (bs ++ [true])| ≤
        |contribF (ts.map (·.1)) bs - contrib (ts.map (·.2)) bs| * (1 + 4 * U) + (contrib (ts.map (·.2)) bs * (17 * U + 4 * U * U) + 2 * U * U) := by
      intro bs hbs
      have hl := corners_length _ bs hbs
      have hp := h p (by simp)
      have hc : ∀ q ∈ ts, Close q := fun q hq => h q (by simp [hq])
      rw [List.map_append, List.map_append, List.map_singleton, List.map_singleton, contribF_snoc hp.1 _ _ (by simp [hl]), contribF_snoc hp.1 _ _ (by simp [hl]),
        contrib_snoc _ _ _ _ (by simp [hl]), contrib_snoc _ _ _ _ (by simp [hl])]
      have := split_err (contribF_nonneg ts hc bs hl) (contrib_nonneg ts hc bs hl) hp
      simp only [Bool.false_eq_true, if_false, if_true]
      linarith
    refine (List.sum_le_sum step).trans ?_
    rw [List.sum_map_add, List.sum_map_add, List.sum_map_mul_right, List.sum_map_mul_right, hsum, List.map_const', List.sum_replicate, corners_card, nsmul_eq_mul]
    have h2 : ((2 ^ ts.length : Nat) : ℝ) ≤ 8 := by
      have : (2 : Nat) ^ ts.length ≤ 2 ^ 3 := Nat.pow_le_pow_right (by norm_num) hn'
      exact_mod_cast this
    have hlen : (ts.length : ℝ) ≤ 3 := by exact_mod_cast hn'
    have h3 : 18 * (ts.length : ℝ) * U ≤ 54 * U := by nlinarith
    push_cast at h2 ⊢
    have h4 : (2 : ℝ) ^ ts.length * (2 * U * U) ≤ 8 * (2 * U * U) := mul_le_mul_of_nonneg_right h2 (by nlinarith)
    nlinarith [mul_le_mul_of_nonneg_right (ih.trans h3) (by linarith : 0 ≤ 4 * U)]

theorem fma_zero (L : Level) (a b : ℝ) : fma L a b 0 = mul a b := by
  unfold fma; split
  · rw [add_zero]; rfl
  · unfold add; rw [add_zero]; exact fl_rep (rep_fl _)

theorem cornerSum_eq (L : Level) (c f : List Bool → ℝ) (l : List (List Bool)) : cornerSum L c f l = l.foldl (fun acc bs => fma L (c bs) (f bs) acc) 0 := by
  cases l with
  | nil => rfl
  | cons b r => rw [cornerSum, List.foldl_cons, fma_zero]

/-- Summing non-negative terms below `2^k`: every term costs at most two roundings. -/
theorem sum_err (L : Level) {k : ℤ} (hk : -120 ≤ k) (c f : List Bool → ℝ) : ∀ (l : List (List Bool)) (a B : ℝ), (∀ bs ∈ l, 0 ≤ c bs * f bs) → 0 ≤ a →
    a + (l.map fun bs => c bs * f bs).sum ≤ B → B + l.length * (2 * (2 ^ k * U)) ≤ 2 ^ k →
    |l.foldl (fun acc bs => fma L (c bs) (f bs) acc) a - (a + (l.map fun bs => c bs * f bs).sum)| ≤ l.length * (2 * (2 ^ k * U))
  | [], a, B, _, _, _, _ => by simp
  | b :: l, a, B, hv, ha, hB, hk2 => by
    have hU := U_pos
    have hpk := two_zpow_pos k
    have hkU := mul_pos hpk hU
    have hb := hv b (by simp)
    have hl : ∀ bs ∈ l, 0 ≤ c bs * f bs := fun bs h => hv bs (by simp [h])
    have hs0 : 0 ≤ (l.map fun bs => c bs * f bs).sum := List.sum_nonneg (by simpa using hl)
    rw [List.map_cons, List.sum_cons] at hB ⊢
    rw [List.length_cons] at hk2 ⊢
    push_cast at hk2 ⊢
    have hlen : (0 : ℝ) ≤ l.length := Nat.cast_nonneg _
    have hlk : 0 ≤ (l.length : ℝ) * (2 * (2 ^ k * U)) := by positivity
    have eU : (2 : ℝ) ^ (k - 25) = 2 ^ k * U := by unfold U; rw [zpow_sub₀ (by norm_num)]; norm_num; ring
    have rnd : ∀ y : ℝ, 0 ≤ y → y ≤ 2 ^ k → |fl y - y| ≤ 2 ^ k * U := by
      intro y y0 y1
      have := fl_err_le (x := y) (k := k) (by linarith) (by rwa [abs_of_nonneg y0])
      rwa [eU] at this
    have e : |fma L (c b) (f b) a - (c b * f b + a)| ≤ 2 * (2 ^ k * U) := by
      unfold fma; split
      · have := rnd (c b * f b + a) (by linarith) (by nlinarith); linarith
      · have r1 := rnd (c b * f b) hb (by nlinarith)
        have r1' := abs_le.mp r1
        have h0 : 0 ≤ mul (c b) (f b) := le_fl rep_zero hb
        have r2 := rnd (mul (c b) (f b) + a) (by linarith) (by unfold mul at *; nlinarith)
        have r2' := abs_le.mp r2
        unfold add mul at *
        rw [abs_le]; constructor <;> linarith
    have e' := abs_le.mp e
    have h0 : 0 ≤ fma L (c b) (f b) a := by
      unfold fma; split
      · exact le_fl rep_zero (by linarith)
      · exact le_fl rep_zero (by have : 0 ≤ mul (c b) (f b) := le_fl rep_zero hb; linarith)
    have ih := sum_err L hk c f l (fma L (c b) (f b) a) (B + 2 * (2 ^ k * U)) hl h0 (by linarith) (by linarith)
    have ih' := abs_le.mp ih
    rw [List.foldl_cons, abs_le]
    constructor <;> linarith

/-- The exponent of the power of two above `fieldMax`. -/
def fieldBits (n : Nat) : ℤ := if n ≤ 2 then 16 else if n = 3 then 10 else 8

theorem fieldMax_eq (n : Nat) : fieldMax n = 2 ^ fieldBits n - 1 := by
  unfold fieldMax fieldBits; split_ifs <;> norm_num

theorem fieldBits_mem (n : Nat) : 8 ≤ fieldBits n := by unfold fieldBits; split_ifs <;> norm_num

theorem close_axis (L : Level) (x : ℝ) : Close (interpHermite L (sub x (⌊x⌋ : ℤ)), Num.interpHermite (x - (⌊x⌋ : ℤ))) := by
  have w := weight_mem L x
  refine ⟨rep_fl _, w.1, w.2, ?_, ?_, ?_⟩
  · have h0 : 0 ≤ x - (⌊x⌋ : ℤ) := by linarith [Int.floor_le x]
    have h1 : x - (⌊x⌋ : ℤ) ≤ 1 := by linarith [Int.lt_floor_add_one x]
    have hH : Num.interpHermite (x - (⌊x⌋ : ℤ)) = (x - ⌊x⌋) * (x - ⌊x⌋) * (3 - (x - ⌊x⌋) * 2) := by unfold Num.interpHermite Num.fnma; ring
    rw [hH]; exact mul_nonneg (mul_self_nonneg _) (by linarith)
  · have h0 : 0 ≤ x - (⌊x⌋ : ℤ) := by linarith [Int.floor_le x]
    have h1 : x - (⌊x⌋ : ℤ) ≤ 1 := by linarith [Int.lt_floor_add_one x]
    have hH : Num.interpHermite (x - (⌊x⌋ : ℤ)) = (x - ⌊x⌋) * (x - ⌊x⌋) * (3 - (x - ⌊x⌋) * 2) := by unfold Num.interpHermite Num.fnma; ring
    rw [hH]
    generalize x - (⌊x⌋ : ℝ) = t at *
    nlinarith [mul_nonneg (sq_nonneg (1 - t)) (by linarith : (0:ℝ) ≤ 1 + 2 * t)]
  · have := weight_err L x
    unfold U; simpa [div_eq_mul_inv] using this

/-- The sum over the corners. -/
theorem cornerSum_err (L : Level) (ts : List (ℝ × ℝ)) (hn : ts.length ≤ 4) (h : ∀ p ∈ ts, Close p) (f : List Bool → ℝ) (hf : ∀ bs, 0 ≤ f bs ∧ f bs ≤ fieldMax ts.length) :
    0 ≤ cornerSum L (contribF (ts.map (·.1))) f (corners ts.length) ∧
    |cornerSum L (contribF (ts.map (·.1))) f (corners ts.length) - ((corners ts.length).map fun bs => contrib (ts.map (·.2)) bs * f bs).sum| ≤
      fieldMax ts.length * (72 * U) + 32 * ((fieldMax ts.length + 1) * U) := by
  have hU := U_pos
  have hU' := U_small
  have hM := fieldMax_pos ts.length
  have hw := weights_err ts hn h
  have hlen : (ts.length : ℝ) ≤ 4 := by exact_mod_cast hn
  have hw' : ((corners ts.length).map fun bs => |contribF (ts.map (·.1)) bs - contrib (ts.map (·.2)) bs|).sum ≤ 72 * U := hw.trans (by nlinarith)
  have hsum : ((corners ts.length).map (contrib (ts.map (·.2)))).sum = 1 := by
    have := contrib_sum (ts.map (·.2)); rwa [List.length_map] at this
  have hpos : ∀ bs ∈ corners ts.length, 0 ≤ contribF (ts.map (·.1)) bs * f bs := fun bs hb => mul_nonneg (contribF_nonneg ts h bs (corners_length _ bs hb)) (hf bs).1
  -- weights with rounding, sum without
  have hd : |((corners ts.length).map fun bs => contribF (ts.map (·.1)) bs * f bs).sum - ((corners ts.length).map fun bs => contrib (ts.map (·.2)) bs * f bs).sum| ≤
      fieldMax ts.length * (72 * U) := by
    have key : ∀ l : List (List Bool), |(l.map fun bs => contribF (ts.map (·.1)) bs * f bs).sum - (l.map fun bs => contrib (ts.map (·.2)) bs * f bs).sum| ≤
        fieldMax ts.length * (l.map fun bs => |contribF (ts.map (·.1)) bs - contrib (ts.map (·.2)) bs|).sum := by
      intro l
      induction l with
      | nil => simp
      | cons b l ih =>
        simp only [List.map_cons, List.sum_cons]
        set A := (l.map fun bs => contribF (ts.map (·.1)) bs * f bs).sum
        set B := (l.map fun bs => contrib (ts.map (·.2)) bs * f bs).sum
        set c := contribF (ts.map (·.1)) b
        set d := contrib (ts.map (·.2)) b
        rw [show c * f b + A - (d * f b + B) = (c - d) * f b + (A - B) by ring]
        refine (abs_add_le _ _).trans ?_
        rw [abs_mul, abs_of_nonneg (hf b).1]
        have := mul_le_mul_of_nonneg_left (hf b).2 (abs_nonneg (c - d))
        linarith
    exact (key _).trans (mul_le_mul_of_nonneg_left hw' hM.le)
  have hS : ((corners ts.length).map fun bs => contrib (ts.map (·.2)) bs * f bs).sum ≤ fieldMax ts.length := by
    have : ((corners ts.length).map fun bs => contrib (ts.map (·.2)) bs * f bs).sum ≤ ((corners ts.length).map fun bs => contrib (ts.map (·.2)) bs * fieldMax ts.length).sum :=
      List.sum_le_sum fun bs hb => mul_le_mul_of_nonneg_left (hf bs).2 (contrib_nonneg ts h bs (corners_length _ bs hb))
    rw [List.sum_map_mul_right, hsum, one_mul] at this
    exact this
  have hd' := abs_le.mp hd
  have hcard : ((corners ts.length).length : ℝ) ≤ 16 := by
    rw [corners_card]
    have : (2 : Nat) ^ ts.length ≤ 2 ^ 4 := Nat.pow_le_pow_right (by norm_num) hn
    exact_mod_cast this
  have hk : (2 : ℝ) ^ fieldBits ts.length = fieldMax ts.length + 1 := by rw [fieldMax_eq]; ring
  have hM2 : fieldMax ts.length ≤ 65535 := by unfold fieldMax; split_ifs <;> norm_num
  have hlt : ((corners ts.length).length : ℝ) * (2 * ((fieldMax ts.length + 1) * U)) ≤ 32 * ((fieldMax ts.length + 1) * U) := by
    have : 0 ≤ 2 * ((fieldMax ts.length + 1) * U) := by positivity
    nlinarith
  have hs := sum_err L (k := fieldBits ts.length) (by have := fieldBits_mem ts.length; omega) (contribF (ts.map (·.1))) f (corners ts.length) 0
    (fieldMax ts.length + fieldMax ts.length * (72 * U)) hpos le_rfl (by linarith) (by rw [hk]; nlinarith)
  rw [hk, zero_add] at hs
  rw [cornerSum_eq]
  have hs' := abs_le.mp (hs.trans hlt)
  refine ⟨?_, by rw [abs_le]; constructor <;> linarith⟩
  have key : ∀ (l : List (List Bool)) (a : ℝ), (∀ bs ∈ l, 0 ≤ contribF (ts.map (·.1)) bs * f bs) → 0 ≤ a → 0 ≤ l.foldl (fun acc bs => fma L (contribF (ts.map (·.1)) bs) (f bs) acc) a := by
    intro l
    induction l with
    | nil => intro a _ h; exact h
    | cons b l ih =>
      intro a hv ha
      refine ih _ (fun bs hb => hv bs (by simp [hb])) ?_
      have hb := hv b (by simp)
      unfold fma; split
      · exact le_fl rep_zero (by linarith)
      · exact le_fl rep_zero (by have : 0 ≤ mul (contribF (ts.map (·.1)) b) (f b) := le_fl rep_zero hb; linarith)
  exact key _ 0 hpos le_rfl

theorem normalise_err (n : Nat) : |normalise n - 2 / fieldMax n| ≤ 2 / fieldMax n * (2 * U) := by
  have hM := fieldMax_pos n
  have hM2 : fieldMax n ≤ 65535 := by unfold fieldMax; split_ifs <;> norm_num
  have e : 1 / (fieldMax n / 2) = 2 / fieldMax n := by field_simp
  unfold normalise
  rw [e]
  have hp : 0 < 2 / fieldMax n := by positivity
  have := fl_rel (x := 2 / fieldMax n) (by
    rw [abs_of_pos hp]
    have : (2 : ℝ) / 65535 ≤ 2 / fieldMax n := div_le_div_of_nonneg_left (by norm_num) hM hM2
    refine le_trans ?_ this
    norm_num)
  rw [abs_of_pos hp] at this
  have e2 : 2 / fieldMax n / 2 ^ 24 = 2 / fieldMax n * (2 * U) := by unfold U; ring
  rwa [e2] at this

theorem fms_err (L : Level) {s S N M : ℝ} (hM : 255 ≤ M) (hS0 : 0 ≤ S) (hS : S ≤ M) (hs0 : 0 ≤ s) (hs : |s - S| ≤ M * (72 * U) + 32 * ((M + 1) * U)) (hN : |N - 2 / M| ≤ 2 / M * (2 * U)) :
    |fms L s N 1 - (S * (2 / M) - 1)| ≤ 220 * U := by
  have hU := U_pos
  have hU' := U_small
  have hM0 : 0 < M := by linarith
  obtain ⟨g, rfl⟩ : ∃ g, s = M * g := ⟨s / M, by field_simp⟩
  obtain ⟨G, rfl⟩ : ∃ G, S = M * G := ⟨S / M, by field_simp⟩
  obtain ⟨ν, rfl⟩ : ∃ ν, N = 2 / M * ν := ⟨N * M / 2, by field_simp⟩
  have hg0 : 0 ≤ g := nonneg_of_mul_nonneg_right hs0 hM0
  have hG0 : 0 ≤ G := nonneg_of_mul_nonneg_right hS0 hM0
  have hG1 : G ≤ 1 := by by_contra hc; push Not at hc; nlinarith
  have hν : |ν - 1| ≤ 2 * U := by
    rw [show 2 / M * ν - 2 / M = 2 / M * (ν - 1) by ring, abs_mul, abs_of_pos (by positivity : 0 < 2 / M)] at hN
    exact le_of_mul_le_mul_left hN (by positivity)
  have hgG : |g - G| ≤ 104.2 * U := by
    rw [show M * g - M * G = M * (g - G) by ring, abs_mul, abs_of_pos hM0] at hs
    have : M * (72 * U) + 32 * ((M + 1) * U) ≤ M * (104.2 * U) := by nlinarith
    exact le_of_mul_le_mul_left (hs.trans this) hM0
  have e1 : M * g * (2 / M * ν) = 2 * (g * ν) := by field_simp
  have e2 : M * G * (2 / M) = 2 * G := by field_simp
  unfold fms
  rw [mul]
  rw [e1, e2]
  have hgb := abs_le.mp hgG
  have hνb := abs_le.mp hν
  have hp : |g * ν - G| ≤ 106.3 * U := by
    rw [show g * ν - G = (g - G) + g * (ν - 1) by ring]
    refine (abs_add_le _ _).trans ?_
    rw [abs_mul, abs_of_nonneg hg0]
    have : g * |ν - 1| ≤ (1 + 0.01) * (2 * U) := mul_le_mul (by linarith) hν (abs_nonneg _) (by norm_num)
    linarith
  have hpb := abs_le.mp hp
  split
  · have r := rnd2 (x := 2 * (g * ν) - 1) (by rw [abs_le]; constructor <;> linarith)
    have rb := abs_le.mp r
    rw [abs_le]; constructor <;> linarith
  · have r := rnd4 (x := 2 * (g * ν)) (by rw [abs_le]; constructor <;> linarith)
    have rb := abs_le.mp r
    have r2 := rnd2 (x := fl (2 * (g * ν)) - 1) (by rw [abs_le]; constructor <;> linarith)
    have rb2 := abs_le.mp r2
    unfold sub
    rw [abs_le]; constructor <;> linarith

theorem axisWarp_err (L : Level) (seed : I32) (x : Pos) (k : Nat) (hn : x.length ≤ 4) : |axisWarp L seed x k - Fractal.axisWarp seed x k| ≤ 220 * U := by
  have hM := fieldMax_pos x.length
  set ts : List (ℝ × ℝ) := x.map fun x => (interpHermite L (sub x (⌊x⌋ : ℤ)), Num.interpHermite (x - (⌊x⌋ : ℤ))) with hts
  have h1 : ts.map (·.1) = x.map fun x => interpHermite L (sub x (⌊x⌋ : ℤ)) := by rw [hts, List.map_map]; rfl
  have h2 : ts.map (·.2) = x.map fun x => Num.interpHermite (x - (⌊x⌋ : ℤ)) := by rw [hts, List.map_map]; rfl
  have hl : ts.length = x.length := by simp [hts]
  have hc : ∀ p ∈ ts, Close p := by
    intro p hp
    obtain ⟨y, -, rfl⟩ := List.mem_map.mp hp
    exact close_axis L y
  have hf := fun bs => field_range x.length k (hashPrimesHB seed (corner x bs))
  obtain ⟨a1, a2⟩ := cornerSum_err L ts (by omega) hc (fun bs => ((field x.length k (hashPrimesHB seed (corner x bs))).toInt : ℝ)) (by rw [hl]; exact hf)
  rw [h1, h2, hl] at a2
  rw [h1, hl] at a1
  have hS0 : 0 ≤ ((corners x.length).map fun bs => contrib (x.map fun x => Num.interpHermite (x - (⌊x⌋ : ℤ))) bs * ((field x.length k (hashPrimesHB seed (corner x bs))).toInt : ℝ)).sum := by
    refine List.sum_nonneg ?_
    intro y hy
    obtain ⟨bs, hb, rfl⟩ := List.mem_map.mp hy
    refine mul_nonneg ?_ (hf bs).1
    have := contrib_nonneg ts hc bs (by rw [hl]; exact corners_length _ bs hb)
    rwa [h2] at this
  have hS1 : ((corners x.length).map fun bs => contrib (x.map fun x => Num.interpHermite (x - (⌊x⌋ : ℤ))) bs * ((field x.length k (hashPrimesHB seed (corner x bs))).toInt : ℝ)).sum ≤ fieldMax x.length := by
    have : ((corners x.length).map fun bs => contrib (x.map fun x => Num.interpHermite (x - (⌊x⌋ : ℤ))) bs * ((field x.length k (hashPrimesHB seed (corner x bs))).toInt : ℝ)).sum ≤
        ((corners x.length).map fun bs => contrib (x.map fun x => Num.interpHermite (x - (⌊x⌋ : ℤ))) bs * fieldMax x.length).sum := by
      refine List.sum_le_sum fun bs hb => mul_le_mul_of_nonneg_left (hf bs).2 ?_
      have := contrib_nonneg ts hc bs (by rw [hl]; exact corners_length _ bs hb)
      rwa [h2] at this
    rw [List.sum_map_mul_right] at this
    have hsum := contrib_sum (x.map fun x => Num.interpHermite (x - (⌊x⌋ : ℤ)))
    rw [List.length_map] at hsum
    rwa [hsum, one_mul] at this
  have := fms_err L (M := fieldMax x.length) (by unfold fieldMax; split_ifs <;> norm_num) hS0 hS1 a1 a2 (normalise_err x.length)
  unfold axisWarp Fractal.axisWarp
  simp only
  rw [Fractal.foldl_fma, zero_add, show 1 / (fieldMax x.length / 2) = 2 / fieldMax x.length by field_simp]
  exact this

end
end FastNoise.F32
