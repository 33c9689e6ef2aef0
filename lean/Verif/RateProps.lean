import Verif.LatticeRateProps
import Verif.ModifierProps
import Verif.FractalProps
/-!
# C76: rates of change through a node tree

C74 and C75 bound how fast the coherent noises change.  Here: what each node of a tree does to such a bound, in exact arithmetic.
-/
namespace FastNoise.Rate
open FastNoise.Hash FastNoise.Num FastNoise.Basic FastNoise.Lattice
open FastNoise.Gradient (Feat)

noncomputable section

/-! ## Specification -/

/-- Between any two positions of `D` the output changes by at most `K` per unit of distance, counting the distance along the axes (`manhattan`: the sum of the coordinate differences). -/
def ChangesAtMost (D : Pos → Prop) (K : ℝ) (s : Src) : Prop :=
  ∀ (seed : I32) (p q : Pos), p.length = q.length → D p → D q → |s seed p - s seed q| ≤ K * manhattan p q

/-- The output stays within [-B, B] on `D`. -/
def StaysWithin (D : Pos → Prop) (B : ℝ) (s : Src) : Prop := ∀ (seed : I32) (p : Pos), D p → |s seed p| ≤ B

/-- `q` is a position each of whose coordinates is within `B` of the one of `p`. -/
def Around (B : ℝ) (p q : Pos) : Prop := List.Forall₂ (fun a b => |b - a| ≤ B) p q

/-! ## Sources -/

/-- **C76**: constants do not change; Value and Perlin noise change by at most 3 and 10 half ranges per feature size (C75). -/
theorem C76_sources (ft : Feat) (ops : List (SetOp ℝ)) (scale v : ℝ) (off : I32) :
    ChangesAtMost (fun _ => True) 0 (Src.const v) ∧
    ChangesAtMost (PosFits scale) (3 * (|lastMax ops - lastMin ops| / 2) / |scale|) (value (rangeAfter ops) scale off) ∧
    ChangesAtMost (fun p => 2 ≤ p.length ∧ p.length ≤ 4 ∧ PosFits scale p) (10 * (|lastMax ops - lastMin ops| / 2) / |scale|) (perlin ft (rangeAfter ops) scale off) := by
  refine ⟨fun _ p q _ _ _ => by simp [Src.const], fun seed p q hl hp hq => ?_, fun seed p q hl hp hq => ?_⟩
  · exact (C75_value_rate ops scale off seed p q hl hp hq).trans (le_of_eq (by ring))
  · exact (C75_perlin_rate ft ops scale off seed p q hp.1 hp.2.1 hl hp.2.2 hq.2.2).trans (le_of_eq (by ring))

theorem manhattan_ofFn {n : Nat} (x y : Fin n → ℝ) : manhattan (List.ofFn x) (List.ofFn y) = ∑ i, |x i - y i| := by
  induction n with
  | zero => simp [manhattan]
  | succ n ih => rw [List.ofFn_succ, List.ofFn_succ, manhattan_cons, ih, Fin.sum_univ_succ]

theorem sum_sq_le : ∀ {n : Nat} (d : Fin n → ℝ), ∑ i, d i ^ 2 ≤ (∑ i, |d i|) ^ 2
  | 0, _ => by simp
  | n + 1, d => by
    rw [Fin.sum_univ_succ, Fin.sum_univ_succ]
    have := sum_sq_le fun i => d (Fin.succ i)
    have h : 0 ≤ ∑ i : Fin n, |d i.succ| := Finset.sum_nonneg fun i _ => abs_nonneg _
    nlinarith [sq_abs (d 0), mul_nonneg (abs_nonneg (d 0)) h]

theorem euclid_le {n : Nat} (x y : Fin n → ℝ) : √(Simplex.distSq x y) ≤ manhattan (List.ofFn x) (List.ofFn y) := by
  rw [manhattan_ofFn]
  refine Real.sqrt_le_iff.mpr ⟨Finset.sum_nonneg fun i _ => abs_nonneg _, ?_⟩
  exact sum_sq_le fun i => x i - y i

/-- Positions in `n` dimensions within 2^28 feature sizes of the origin. -/
def InReach (n : Nat) (scale : ℝ) (p : Pos) : Prop := p.length = n ∧ ∀ a ∈ p, |a / scale| ≤ 2 ^ 28

theorem InReach.fn {n : Nat} {scale : ℝ} {p : Pos} (h : InReach n scale p) : ∃ x : Fin n → ℝ, p = List.ofFn x ∧ Simplex.Fits scale x := by
  obtain ⟨rfl, h2⟩ := h
  refine ⟨p.get, (List.ofFn_get p).symm, fun i => h2 _ (List.get_mem p i)⟩

theorem rate_of_euclid {n : Nat} {scale c R : ℝ} (hc : 0 ≤ c) (hR : 0 ≤ R) {s : Src}
    (h : ∀ (seed : I32) (x y : Fin n → ℝ), Simplex.Fits scale x → Simplex.Fits scale y → |s seed (List.ofFn x) - s seed (List.ofFn y)| ≤ c * R * (√(Simplex.distSq x y) / |scale|)) :
    ChangesAtMost (InReach n scale) (c * R / |scale|) s := by
  intro seed p q _ hp hq
  obtain ⟨x, rfl, hx⟩ := hp.fn
  obtain ⟨y, rfl, hy⟩ := hq.fn
  refine (h seed x y hx hy).trans ?_
  rw [div_mul_eq_mul_div, mul_div_assoc]
  exact mul_le_mul_of_nonneg_left (div_le_div_of_nonneg_right (euclid_le x y) (abs_nonneg _)) (by positivity)

/-- **C76**: 2D Simplex and 2D and 3D SuperSimplex noise change by at most 24, 19 and 41 half ranges per feature size (C74; the Euclidean distance is at most the distance along the axes). -/
theorem C76_simplex (ft : Feat) (ops : List (SetOp ℝ)) (scale : ℝ) (off : I32) :
    ChangesAtMost (InReach 2 scale) (24 * (|lastMax ops - lastMin ops| / 2) / |scale|) (Simplex.simplex ft (rangeAfter ops) scale off) ∧
    ChangesAtMost (InReach 2 scale) (19 * (|lastMax ops - lastMin ops| / 2) / |scale|) (Simplex.superSimplex ft (rangeAfter ops) scale off) ∧
    ChangesAtMost (InReach 3 scale) (41 * (|lastMax ops - lastMin ops| / 2) / |scale|) (Simplex.superSimplex ft (rangeAfter ops) scale off) :=
  ⟨rate_of_euclid (by norm_num) (by positivity) fun seed x y => Simplex.C74_simplex2_rate ft ops scale off seed x y,
    rate_of_euclid (by norm_num) (by positivity) fun seed x y => Simplex.C74_super2_rate ft ops scale off seed x y,
    rate_of_euclid (by norm_num) (by positivity) fun seed x y => Simplex.C74_super3_rate ft ops scale off seed x y⟩

variable {D : Pos → Prop} {K K' A B : ℝ} {l r s : Src}

/-! ## Blends -/

theorem max_diff (a b a' b' : ℝ) : |max a b - max a' b'| ≤ max |a - a'| |b - b'| := abs_max_sub_max_le_max a b a' b'
theorem min_diff (a b a' b' : ℝ) : |min a b - min a' b'| ≤ max |a - a'| |b - b'| := abs_min_sub_min_le_max a b a' b'

theorem max_rate {d : ℝ} (hd : 0 ≤ d) {x y : ℝ} (hx : x ≤ K * d) (hy : y ≤ K' * d) : max x y ≤ max K K' * d :=
  max_le (hx.trans (mul_le_mul_of_nonneg_right (le_max_left _ _) hd)) (hy.trans (mul_le_mul_of_nonneg_right (le_max_right _ _) hd))

/-- **C76**: sums and differences change by at most the sum of the rates, the larger and the smaller of two values by at most the larger rate; a product of values within [-A, A] and [-B, B] by at most `A K' + B K`. -/
theorem C76_blends (hl : ChangesAtMost D K l) (hr : ChangesAtMost D K' r) :
    ChangesAtMost D (K + K') (Modifiers.blend .add l r) ∧ ChangesAtMost D (K + K') (Modifiers.blend .subtract l r) ∧
    ChangesAtMost D (max K K') (Modifiers.blend .min l r) ∧ ChangesAtMost D (max K K') (Modifiers.blend .max l r) ∧
    (StaysWithin D A l → StaysWithin D B r → ChangesAtMost D (A * K' + B * K) (Modifiers.blend .multiply l r)) := by
  refine ⟨?_, ?_, ?_, ?_, ?_⟩
  · intro seed p q hpq hp hq
    have a := hl seed p q hpq hp hq
    have b := hr seed p q hpq hp hq
    simp only [Modifiers.blend]
    rw [show l seed p + r seed p - (l seed q + r seed q) = l seed p - l seed q + (r seed p - r seed q) by ring, add_mul]
    exact (abs_add_le _ _).trans (add_le_add a b)
  · intro seed p q hpq hp hq
    have a := hl seed p q hpq hp hq
    have b := hr seed p q hpq hp hq
    simp only [Modifiers.blend]
    rw [show l seed p - r seed p - (l seed q - r seed q) = l seed p - l seed q - (r seed p - r seed q) by ring, add_mul]
    exact (abs_sub _ _).trans (add_le_add a b)
  · intro seed p q hpq hp hq
    exact (min_diff _ _ _ _).trans (max_rate (manhattan_nonneg p q) (hl seed p q hpq hp hq) (hr seed p q hpq hp hq))
  · intro seed p q hpq hp hq
    exact (max_diff _ _ _ _).trans (max_rate (manhattan_nonneg p q) (hl seed p q hpq hp hq) (hr seed p q hpq hp hq))
  · intro ha hb seed p q hpq hp hq
    have a := hl seed p q hpq hp hq
    have b := hr seed p q hpq hp hq
    have a2 := ha seed p hp
    have b2 := hb seed q hq
    simp only [Modifiers.blend]
    rw [show l seed p * r seed p - l seed q * r seed q = l seed p * (r seed p - r seed q) + r seed q * (l seed p - l seed q) by ring]
    refine (abs_add_le _ _).trans ?_
    rw [abs_mul, abs_mul, add_mul, mul_assoc, mul_assoc]
    exact add_le_add (mul_le_mul a2 b (abs_nonneg _) ((abs_nonneg _).trans a2)) (mul_le_mul b2 a (abs_nonneg _) ((abs_nonneg _).trans b2))

theorem minSmooth_shift (a b d sm : ℝ) : Modifiers.minSmoothFn (a + d) (b + d) sm = Modifiers.minSmoothFn a b sm + d := by
  rw [Modifiers.minSmoothFn_eq, Modifiers.minSmoothFn_eq, min_add_add_right, show a + d - (b + d) = a - b by ring]
  ring

theorem minSmooth_le {a b a' b' d : ℝ} (sm : ℝ) (h1 : a ≤ a' + d) (h2 : b ≤ b' + d) : Modifiers.minSmoothFn a b sm ≤ Modifiers.minSmoothFn a' b' sm + d := by
  rw [← minSmooth_shift]
  refine (Modifiers.minSmoothFn_mono_left b sm h1).trans ?_
  rw [Modifiers.minSmoothFn_comm, Modifiers.minSmoothFn_comm (a' + d)]
  exact Modifiers.minSmoothFn_mono_left _ sm h2

theorem minSmooth_diff (a b a' b' sm : ℝ) : |Modifiers.minSmoothFn a b sm - Modifiers.minSmoothFn a' b' sm| ≤ max |a - a'| |b - b'| := by
  have m1 := le_max_left |a - a'| |b - b'|
  have m2 := le_max_right |a - a'| |b - b'|
  have a1 := abs_le.mp m1
  have a2 := abs_le.mp m2
  have u := minSmooth_le (d := max |a - a'| |b - b'|) sm (by linarith : a ≤ a' + _) (by linarith : b ≤ b' + _)
  have v := minSmooth_le (d := max |a - a'| |b - b'|) sm (by linarith : a' ≤ a + _) (by linarith : b' ≤ b + _)
  rw [abs_le]
  constructor <;> linarith

/-- **C76**: smoothing does not make a minimum or maximum steeper: with a constant smoothness the rate is at most the larger one, as for Min and Max. -/
theorem C76_smooth (sm : ℝ) (hl : ChangesAtMost D K l) (hr : ChangesAtMost D K' r) :
    ChangesAtMost D (max K K') (Modifiers.minSmooth (Src.const sm) l r) ∧ ChangesAtMost D (max K K') (Modifiers.maxSmooth (Src.const sm) l r) := by
  constructor
  · intro seed p q hpq hp hq
    exact (minSmooth_diff _ _ _ _ _).trans (max_rate (manhattan_nonneg p q) (hl seed p q hpq hp hq) (hr seed p q hpq hp hq))
  · intro seed p q hpq hp hq
    unfold Modifiers.maxSmooth
    simp only [Src.const]
    rw [neg_sub_neg, abs_sub_comm]
    refine (minSmooth_diff _ _ _ _ _).trans (max_rate (manhattan_nonneg p q) ?_ ?_)
    · rw [neg_sub_neg, abs_sub_comm]; exact hl seed p q hpq hp hq
    · rw [neg_sub_neg, abs_sub_comm]; exact hr seed p q hpq hp hq

/-- **C76**: a Fade at a constant position between its inputs is not steeper than the steeper one. -/
theorem C76_fade (i : Modifiers.Interpolation) (f lo hi : ℝ) (hl : ChangesAtMost D K l) (hr : ChangesAtMost D K' r) :
    ChangesAtMost D (max K K') (Modifiers.fade i l r (Src.const f) (Src.const lo) (Src.const hi)) := by
  intro seed p q hpq hp hq
  have m0 : 0 ≤ max (0 : ℝ) (min 1 ((f - lo) / (hi - lo))) := le_max_left _ _
  have m1 : max (0 : ℝ) (min 1 ((f - lo) / (hi - lo))) ≤ 1 := max_le (by norm_num) (min_le_left _ _)
  obtain ⟨t, ht, h0, h1⟩ : ∃ t : ℝ, (∀ z, Modifiers.fade i l r (Src.const f) (Src.const lo) (Src.const hi) seed z = lerp (l seed z) (r seed z) t) ∧ 0 ≤ t ∧ t ≤ 1 := by
    by_cases hr : hi - lo = 0
    · exact ⟨0.5, fun z => by simp only [Modifiers.fade, Src.const, hr, if_true], by norm_num, by norm_num⟩
    · cases i
      · exact ⟨_, fun z => by simp only [Modifiers.fade, Src.const, hr, if_false], m0, m1⟩
      · exact ⟨_, fun z => by simp only [Modifiers.fade, Src.const, hr, if_false], hermite_mem m0 m1⟩
      · exact ⟨_, fun z => by simp only [Modifiers.fade, Src.const, hr, if_false], quintic_mem m0 m1⟩
  rw [ht, ht]
  have d := manhattan_nonneg p q
  have a := (hl seed p q hpq hp hq).trans (mul_le_mul_of_nonneg_right (le_max_left K K') d)
  have b := (hr seed p q hpq hp hq).trans (mul_le_mul_of_nonneg_right (le_max_right K K') d)
  have := lerp_diff (u' := t) (E := 0) h0 h1 a b le_rfl (by simp)
  simpa using this

/-! ## Modifiers of the value -/

theorem pingPong_diff (t t' : ℝ) : |Modifiers.pingPongFn t - Modifiers.pingPongFn t'| ≤ |t - t'| := by
  have one : ∀ t t' : ℝ, Modifiers.pingPongFn t - Modifiers.pingPongFn t' ≤ |t - t'| := by
    intro t t'
    have e : ∀ t, Modifiers.pingPong (Src.const 1) (Src.const t) 0 [] = Modifiers.pingPongFn t := by intro t; simp [Modifiers.pingPong, Src.const]
    have a := (Modifiers.C30_pingpong (Src.const 1) (Src.const t) 0 []).2.2.2.2
    obtain ⟨k, hk⟩ := (Modifiers.C30_pingpong (Src.const 1) (Src.const t') 0 []).2.2.2.1
    have b := a k
    rw [e] at b hk
    simp only [Src.const, mul_one] at b hk
    rw [hk]
    have := abs_sub_abs_le_abs_sub (t - 2 * k) (t' - 2 * k)
    rw [show t - 2 * (k : ℝ) - (t' - 2 * k) = t - t' by ring] at this
    linarith
  rw [abs_le]
  have := one t' t
  rw [abs_sub_comm] at this
  exact ⟨by linarith, one t t'⟩

theorem clamp_diff (a b lo hi : ℝ) : |min (max a lo) hi - min (max b lo) hi| ≤ |a - b| := by
  refine (min_diff _ _ _ _).trans ?_
  rw [sub_self, abs_zero, max_eq_left (abs_nonneg _)]
  refine (max_diff _ _ _ _).trans ?_
  rw [sub_self, abs_zero, max_eq_left (abs_nonneg _)]

/-- **C76**: Abs keeps the rate, PingPong multiplies it with the strength, Remap with the ratio of the ranges, clamped or not. -/
theorem C76_modifiers (hs : ChangesAtMost D K s) (strength fromMin fromMax toMin toMax : ℝ) (clamp : Bool) :
    ChangesAtMost D K (Modifiers.absNode s) ∧
    ChangesAtMost D (K * |strength|) (Modifiers.pingPong (Src.const strength) s) ∧
    ChangesAtMost D (K * (|toMax - toMin| / |fromMax - fromMin|)) (Modifiers.remap clamp (Src.const fromMin) (Src.const fromMax) (Src.const toMin) (Src.const toMax) s) := by
  refine ⟨?_, ?_, ?_⟩
  · intro seed p q hpq hp hq
    exact (abs_abs_sub_abs_le _ _).trans (hs seed p q hpq hp hq)
  · intro seed p q hpq hp hq
    refine (pingPong_diff _ _).trans ?_
    simp only [Src.const]
    rw [← sub_mul, abs_mul, mul_right_comm]
    exact mul_le_mul_of_nonneg_right (hs seed p q hpq hp hq) (abs_nonneg _)
  · intro seed p q hpq hp hq
    have key : |toMin + ((s seed p - fromMin) / (fromMax - fromMin) * (toMax - toMin)) - (toMin + ((s seed q - fromMin) / (fromMax - fromMin) * (toMax - toMin)))| ≤
        K * (|toMax - toMin| / |fromMax - fromMin|) * manhattan p q := by
      rw [show toMin + ((s seed p - fromMin) / (fromMax - fromMin) * (toMax - toMin)) - (toMin + ((s seed q - fromMin) / (fromMax - fromMin) * (toMax - toMin))) =
        (s seed p - s seed q) * ((toMax - toMin) / (fromMax - fromMin)) by ring, abs_mul, abs_div, mul_right_comm]
      exact mul_le_mul_of_nonneg_right (hs seed p q hpq hp hq) (by positivity)
    unfold Modifiers.remap
    simp only [Src.const]
    cases clamp
    · exact key
    · exact (clamp_diff _ _ _ _).trans key

/-! ## Modifiers of the position -/

theorem manhattan_mapIdx {c E : ℝ} : ∀ (p q : List ℝ) (f g : Nat → ℝ → ℝ), p.length = q.length → (∀ k a b, |f k a - g k b| ≤ c * |a - b| + E) →
    manhattan (p.mapIdx f) (q.mapIdx g) ≤ c * manhattan p q + p.length * E
  | [], [], _, _, _, _ => by simp [manhattan]
  | a :: p, b :: q, f, g, hl, h => by
    have := manhattan_mapIdx p q (fun i => f (i + 1)) (fun i => g (i + 1)) (by simpa using hl) (fun k => h (k + 1))
    rw [List.mapIdx_cons, List.mapIdx_cons, manhattan_cons, manhattan_cons, List.length_cons]
    have h0 := h 0 a b
    push_cast
    linarith

theorem around_mapIdx {B : ℝ} : ∀ (p : List ℝ) (f : Nat → ℝ → ℝ), (∀ k a, |f k a - a| ≤ B) → Around B p (p.mapIdx f)
  | [], _, _ => by simp [Around]
  | a :: p, f, h => by
    rw [List.mapIdx_cons]
    exact List.Forall₂.cons (h 0 a) (around_mapIdx p (fun i => f (i + 1)) fun k => h (k + 1))

theorem manhattan_map_mul (c : ℝ) (p q : List ℝ) : manhattan (p.map (· * c)) (q.map (· * c)) = manhattan p q * |c| := manhattan_scale c p q

theorem manhattan_append : ∀ (p q a b : List ℝ), p.length = q.length → manhattan (p ++ a) (q ++ b) = manhattan p q + manhattan a b
  | [], [], a, b, _ => by simp [manhattan]
  | x :: p, y :: q, a, b, h => by
    rw [List.cons_append, List.cons_append, manhattan_cons, manhattan_cons, manhattan_append p q a b (by simpa using h)]; ring

/-- **C76**: scaling the domain multiplies the rate with the factor, scaling its axes with at most the largest factor; moving the origin or the seed keeps it; adding a dimension whose coordinate changes at rate `R` multiplies it with `1 + R`,
so a constant one keeps it. -/
theorem C76_domain (hK : 0 ≤ K) (hs : ChangesAtMost D K s) (c : ℝ) (axis offset : Nat → ℝ) {S : ℝ} (hS : ∀ k, |axis k| ≤ S) (so : I32) {newPos : Src} {R : ℝ} (hR : ChangesAtMost (fun _ => True) R newPos) {W : ℝ} (hW : StaysWithin (fun _ => True) W newPos) :
    ChangesAtMost (fun p => D (p.map (· * c))) (K * |c|) (Modifiers.domainScale c s) ∧
    ChangesAtMost (fun p => D (p.mapIdx fun k a => a * axis k)) (K * S) (Modifiers.domainAxisScale axis s) ∧
    ChangesAtMost (fun p => D (p.mapIdx fun k a => a + offset k)) K (Modifiers.domainOffset (fun k => Src.const (offset k)) s) ∧
    ChangesAtMost D K (Modifiers.seedOffset so s) ∧
    ChangesAtMost (fun p => p.length ≠ 4 ∧ ∀ w, |w| ≤ W → D (p ++ [w])) (K * (1 + R)) (Modifiers.addDimension newPos s) := by
  refine ⟨?_, ?_, ?_, ?_, ?_⟩
  · intro seed p q hpq hp hq
    have := hs seed _ _ (by simpa using hpq) hp hq
    rw [manhattan_map_mul] at this
    exact this.trans (le_of_eq (by ring))
  · intro seed p q hpq hp hq
    refine (hs seed _ _ (by simpa using hpq) hp hq).trans ?_
    rw [mul_assoc]
    refine mul_le_mul_of_nonneg_left ?_ hK
    refine (manhattan_mapIdx (c := S) (E := 0) p q _ _ hpq ?_).trans (by simp)
    intro k a b
    rw [← sub_mul, abs_mul, add_zero, mul_comm]
    exact mul_le_mul_of_nonneg_right (hS k) (abs_nonneg _)
  · intro seed p q hpq hp hq
    refine (hs seed _ _ (by simpa using hpq) hp hq).trans (mul_le_mul_of_nonneg_left ?_ hK)
    refine (manhattan_mapIdx (c := 1) (E := 0) p q _ _ hpq ?_).trans (by simp)
    intro k a b
    simp
  · intro seed p q hpq hp hq
    exact hs (seed + so) p q hpq hp hq
  · intro seed p q hpq hp hq
    unfold Modifiers.addDimension
    rw [if_neg hp.1, if_neg hq.1]
    refine (hs seed _ _ (by simp [hpq]) (hp.2 _ (hW seed p trivial)) (hq.2 _ (hW seed q trivial))).trans ?_
    rw [mul_assoc]
    refine mul_le_mul_of_nonneg_left ?_ hK
    rw [manhattan_append _ _ _ _ hpq]
    have := hR seed p q hpq trivial trivial
    simp only [manhattan, List.zipWith_cons_cons, List.zipWith_nil_left, List.sum_cons, List.sum_nil, add_zero] at this ⊢
    linarith

/-- **C76**: removing a dimension keeps the rate. -/
theorem C76_remove (hK : 0 ≤ K) (hs : ChangesAtMost D K s) (dim : Nat) : ChangesAtMost (fun p => ∀ q, q.Sublist p → D q) K (Modifiers.removeDimension dim s) := by
  intro seed p q hpq hp hq
  have key : ∀ p' q' : Pos, p'.Sublist p → q'.Sublist q → p'.length = q'.length → manhattan p' q' ≤ manhattan p q → |s seed p' - s seed q'| ≤ K * manhattan p q :=
    fun p' q' s1 s2 h1 h2 => (hs seed p' q' h1 (hp _ s1) (hq _ s2)).trans (mul_le_mul_of_nonneg_left h2 hK)
  have same := key p q (List.Sublist.refl _) (List.Sublist.refl _) hpq le_rfl
  unfold Modifiers.removeDimension
  match p, q, hpq with
  | [], [], _ => exact same
  | [_], [_], _ => exact same
  | [_, _], [_, _], _ => exact same
  | [a, b, c], [a', b', c'], _ =>
    have := abs_nonneg (a - a'); have := abs_nonneg (b - b'); have := abs_nonneg (c - c')
    simp only
    split_ifs
    · exact key _ _ (by simp) (by simp) rfl (by simp [manhattan])
    · exact key _ _ (by simp) (by simp) rfl (by simp [manhattan])
    · exact key _ _ (by simp) (by simp) rfl (by simp [manhattan])
    · exact same
  | [a, b, c, d], [a', b', c', d'], _ =>
    have := abs_nonneg (a - a'); have := abs_nonneg (b - b'); have := abs_nonneg (c - c'); have := abs_nonneg (d - d')
    simp only
    split_ifs
    · exact key _ _ (by simp) (by simp) rfl (by simp [manhattan])
    · exact key _ _ (by simp) (by simp) rfl (by simp [manhattan])
    · exact key _ _ (by simp) (by simp) rfl (by simp [manhattan])
    · exact key _ _ (by simp) (by simp) rfl (by simp [manhattan])
    · exact same
  | _ :: _ :: _ :: _ :: _ :: _, _ :: _ :: _ :: _ :: _ :: _, h => exact same

/-- **C76**: a DomainOffset whose offsets stay within [-B, B] and change at rate `R` multiplies the rate with at most `1 + n R`. -/
theorem C76_offset (hK : 0 ≤ K) (hs : ChangesAtMost D K s) {offset : Nat → Src} {D' : Pos → Prop} {R B : ℝ} (hB : ∀ k, StaysWithin D' B (offset k)) (hR : ∀ k, ChangesAtMost D' R (offset k)) (n : Nat) :
    ChangesAtMost (fun p => p.length = n ∧ D' p ∧ ∀ q, Around B p q → D q) (K * (1 + n * R)) (Modifiers.domainOffset offset s) := by
  intro seed p q hpq hp hq
  have close : ∀ p : Pos, D' p → Around B p (p.mapIdx fun idx o => o + offset idx seed p) := by
    intro p hp
    refine around_mapIdx p _ fun k a => ?_
    rw [add_sub_cancel_left]
    exact hB k seed p hp
  refine (hs seed _ _ (by simpa using hpq) (hp.2.2 _ (close p hp.2.1)) (hq.2.2 _ (close q hq.2.1))).trans ?_
  rw [mul_assoc]
  refine mul_le_mul_of_nonneg_left ?_ hK
  refine (manhattan_mapIdx (c := 1) (E := R * manhattan p q) p q _ _ hpq ?_).trans (le_of_eq (by rw [hp.1]; ring))
  intro k a b
  have := hR k seed p q hpq hp.2.1 hq.2.1
  rw [show a + offset k seed p - (b + offset k seed q) = (a - b) + (offset k seed p - offset k seed q) by ring]
  refine (abs_add_le _ _).trans (by linarith)

/-! ## Fractals -/

/-- The sum `1 + x + .. + x^(n-1)`. -/
def geometric (x : ℝ) (n : Nat) : ℝ := ∑ i ∈ Finset.range n, x ^ i

theorem geometric_succ (x : ℝ) (n : Nat) : geometric x (n + 1) = 1 + x * geometric x n := by
  unfold geometric
  rw [Finset.sum_range_succ', Finset.mul_sum, pow_zero, add_comm]
  congr 1
  exact Finset.sum_congr rfl fun i _ => by ring

theorem map_pow (p : Pos) (lac : ℝ) (i : Nat) : (p.map (· * lac)).map (· * lac ^ i) = p.map (· * lac ^ (i + 1)) := by
  rw [List.map_map]
  exact List.map_congr_left fun a _ => by simp only [Function.comp_apply]; ring

theorem map_one (p : Pos) (lac : ℝ) : p.map (· * lac ^ 0) = p := by simp

theorem lerp_zero (a b : ℝ) : lerp a b 0 = a := by simp [lerp, Num.fma]

theorem fbmLoop_rate (hs : ChangesAtMost D K s) (gain lac : ℝ) : ∀ (n : Nat) (seed : I32) (p q : Pos) (amp x x' sum sum' : ℝ), p.length = q.length →
    (∀ i, 1 ≤ i → i ≤ n → D (p.map (· * lac ^ i)) ∧ D (q.map (· * lac ^ i))) →
    |Fractal.fbmLoop s gain 0 lac n seed p amp x sum - Fractal.fbmLoop s gain 0 lac n seed q amp x' sum'| ≤
      |sum - sum'| + |amp| * K * manhattan p q * (|gain * lac| * geometric |gain * lac| n)
  | 0, seed, p, q, amp, x, x', sum, sum', _, _ => by simp [Fractal.fbmLoop, geometric]
  | n + 1, seed, p, q, amp, x, x', sum, sum', hl, hD => by
    simp only [Fractal.fbmLoop, lerp_zero, mul_one]
    refine (fbmLoop_rate hs gain lac n _ _ _ _ _ _ _ _ (by simpa using hl) ?_).trans ?_
    · intro i h1 h2
      rw [map_pow, map_pow]
      exact hD (i + 1) (by omega) (by omega)
    · have h1 := hD 1 le_rfl (by omega)
      rw [pow_one] at h1
      have a := hs (seed - -1) _ _ (by simpa using hl) h1.1 h1.2
      rw [manhattan_map_mul] at a ⊢
      rw [geometric_succ]
      generalize s (seed - -1) (p.map (· * lac)) = u at *
      generalize s (seed - -1) (q.map (· * lac)) = v at *
      have t : |sum + u * (amp * gain) - (sum' + v * (amp * gain))| ≤ |sum - sum'| + |u - v| * (|amp| * |gain|) := by
        rw [show sum + u * (amp * gain) - (sum' + v * (amp * gain)) = (sum - sum') + (u - v) * (amp * gain) by ring]
        refine (abs_add_le _ _).trans ?_
        rw [abs_mul (u - v), abs_mul amp]
      have t2 := mul_le_mul_of_nonneg_right a (by positivity : 0 ≤ |amp| * |gain|)
      rw [abs_mul amp, abs_mul gain]
      nlinarith [t, t2]

/-- **C76**: an FBm fractal (constant gain, no weighted strength) over a source that changes at rate `K` changes at rate at most `K (1 + |gain lacunarity| + .. + |gain lacunarity|^(octaves-1))`. -/
theorem C76_fbm (hs : ChangesAtMost D K s) (gain lac : ℝ) (octaves : ℤ) (h1 : 1 ≤ octaves) :
    ChangesAtMost (fun p => ∀ i < octaves.toNat, D (p.map (· * lac ^ i))) (K * geometric |gain * lac| octaves.toNat)
      (Fractal.fbm ⟨Src.const gain, Src.const 0, octaves, lac⟩ s) := by
  obtain ⟨n, rfl⟩ : ∃ n : Nat, octaves = n + 1 := ⟨(octaves - 1).toNat, by omega⟩
  have e1 : ((n : ℤ) + 1 - 1).toNat = n := by omega
  have e2 : ((n : ℤ) + 1).toNat = n + 1 := by omega
  intro seed p q hl hp hq
  rw [e2] at *
  have d0 := hp 0 (by omega)
  have d1 := hq 0 (by omega)
  rw [map_one] at d0 d1
  have a := hs seed p q hl d0 d1
  simp only [Fractal.fbm, e1, Src.const, mul_one]
  refine (fbmLoop_rate hs gain lac n seed p q 1 _ _ _ _ hl (fun i _ h => ⟨hp i (by omega), hq i (by omega)⟩)).trans ?_
  rw [geometric_succ, abs_one]
  nlinarith

theorem ridgedLoop_rate (hs : ChangesAtMost D K s) (gain lac : ℝ) : ∀ (n : Nat) (seed : I32) (p q : Pos) (amp x x' sum sum' : ℝ), p.length = q.length →
    (∀ i, 1 ≤ i → i ≤ n → D (p.map (· * lac ^ i)) ∧ D (q.map (· * lac ^ i))) →
    |Fractal.ridgedLoop s gain 0 lac n seed p amp x sum - Fractal.ridgedLoop s gain 0 lac n seed q amp x' sum'| ≤
      |sum - sum'| + |amp| * (2 * K) * manhattan p q * (|gain * lac| * geometric |gain * lac| n)
  | 0, seed, p, q, amp, x, x', sum, sum', _, _ => by simp [Fractal.ridgedLoop, geometric]
  | n + 1, seed, p, q, amp, x, x', sum, sum', hl, hD => by
    simp only [Fractal.ridgedLoop, lerp_zero, mul_one]
    refine (ridgedLoop_rate hs gain lac n _ _ _ _ _ _ _ _ (by simpa using hl) ?_).trans ?_
    · intro i h1 h2
      rw [map_pow, map_pow]
      exact hD (i + 1) (by omega) (by omega)
    · have h1 := hD 1 le_rfl (by omega)
      rw [pow_one] at h1
      have a := (abs_abs_sub_abs_le _ _).trans (hs (seed - -1) _ _ (by simpa using hl) h1.1 h1.2)
      rw [manhattan_map_mul] at a ⊢
      rw [geometric_succ]
      generalize |s (seed - -1) (p.map (· * lac))| = u at *
      generalize |s (seed - -1) (q.map (· * lac))| = v at *
      have t : |sum + (u * -2 + 1) * (amp * gain) - (sum' + (v * -2 + 1) * (amp * gain))| ≤ |sum - sum'| + 2 * |u - v| * (|amp| * |gain|) := by
        rw [show sum + (u * -2 + 1) * (amp * gain) - (sum' + (v * -2 + 1) * (amp * gain)) = (sum - sum') + (-2) * (u - v) * (amp * gain) by ring]
        refine (abs_add_le _ _).trans ?_
        rw [abs_mul (-2 * (u - v)), abs_mul amp, abs_mul (-2 : ℝ), abs_neg, abs_two]
      have t2 := mul_le_mul_of_nonneg_right a (by positivity : 0 ≤ |amp| * |gain|)
      rw [abs_mul amp, abs_mul gain]
      nlinarith [t, t2]

/-- **C76**: a ridged fractal at most twice as fast. -/
theorem C76_ridged (hs : ChangesAtMost D K s) (gain lac : ℝ) (octaves : ℤ) (h1 : 1 ≤ octaves) :
    ChangesAtMost (fun p => ∀ i < octaves.toNat, D (p.map (· * lac ^ i))) (2 * K * geometric |gain * lac| octaves.toNat)
      (Fractal.ridged ⟨Src.const gain, Src.const 0, octaves, lac⟩ s) := by
  obtain ⟨n, rfl⟩ : ∃ n : Nat, octaves = n + 1 := ⟨(octaves - 1).toNat, by omega⟩
  have e1 : ((n : ℤ) + 1 - 1).toNat = n := by omega
  have e2 : ((n : ℤ) + 1).toNat = n + 1 := by omega
  intro seed p q hl hp hq
  rw [e2] at *
  have d0 := hp 0 (by omega)
  have d1 := hq 0 (by omega)
  rw [map_one] at d0 d1
  have a := (abs_abs_sub_abs_le _ _).trans (hs seed p q hl d0 d1)
  simp only [Fractal.ridged, e1, Src.const, mul_one]
  refine (ridgedLoop_rate hs gain lac n seed p q 1 _ _ _ _ hl (fun i _ h => ⟨hp i (by omega), hq i (by omega)⟩)).trans ?_
  rw [geometric_succ, abs_one]
  generalize |s seed p| = u at *
  generalize |s seed q| = v at *
  rw [show u * -2 + 1 - (v * -2 + 1) = -2 * (u - v) by ring, abs_mul, abs_neg, abs_two]
  nlinarith

/-! ### Weighted strength

With a weighted strength the amplitude of each octave depends on the noise of the octaves before it, so the amplitudes change too. -/

/-- What the octaves after the first contribute at most, per unit of the source's rate: octave `j` contributes `gain^j lacunarity^j` itself and, through its amplitude, `gain^j w (1 + lacunarity + .. + lacunarity^(j-1))`,
where `w` is the rate of the weight. -/
def octaveRate (gain w lac : ℝ) (j : Nat) : ℝ := gain ^ j * (lac ^ j + w * geometric lac j)

theorem geometric_last (x : ℝ) (n : Nat) : geometric x (n + 1) = geometric x n + x ^ n := by unfold geometric; rw [Finset.sum_range_succ]

theorem geometric_nonneg {x : ℝ} (h : 0 ≤ x) (n : Nat) : 0 ≤ geometric x n := Finset.sum_nonneg fun i _ => pow_nonneg h i

theorem mul_diff {a b a' b' A B α β : ℝ} (ha : |a'| ≤ A) (hb : |b| ≤ B) (hα : |a - a'| ≤ α) (hβ : |b - b'| ≤ β) : |a * b - a' * b'| ≤ α * B + A * β := by
  rw [show a * b - a' * b' = (a - a') * b + a' * (b - b') by ring]
  refine (abs_add_le _ _).trans ?_
  rw [abs_mul, abs_mul]
  exact add_le_add (mul_le_mul hα hb (abs_nonneg _) ((abs_nonneg _).trans hα)) (mul_le_mul ha hβ (abs_nonneg _) ((abs_nonneg _).trans ha))

theorem fbmLoop_weighted (hs : ChangesAtMost D K s) (h1 : StaysWithin D 1 s) {gain ws lac : ℝ} (hg : 0 ≤ gain) (w0 : 0 ≤ ws) (w1 : ws ≤ 1) {d : ℝ} :
    ∀ (n i : Nat) (seed : I32) (p q : Pos) (amp amp' x x' sum sum' : ℝ), p.length = q.length → manhattan p q = d * |lac| ^ i →
    (∀ j, 1 ≤ j → j ≤ n → D (p.map (· * lac ^ j)) ∧ D (q.map (· * lac ^ j))) → 0 ≤ amp → amp ≤ gain ^ i → 0 ≤ amp' → amp' ≤ gain ^ i →
    |amp - amp'| ≤ gain ^ i * (ws / 2 * geometric |lac| i) * (K * d) → |x| ≤ 1 → |x'| ≤ 1 → |x - x'| ≤ K * (d * |lac| ^ i) →
    |Fractal.fbmLoop s gain ws lac n seed p amp x sum - Fractal.fbmLoop s gain ws lac n seed q amp' x' sum'| ≤
      |sum - sum'| + K * d * ∑ j ∈ Finset.range n, octaveRate gain (ws / 2) |lac| (i + 1 + j)
  | 0, i, seed, p, q, amp, amp', x, x', sum, sum', _, _, _, _, _, _, _, _, _, _, _ => by simp [Fractal.fbmLoop]
  | n + 1, i, seed, p, q, amp, amp', x, x', sum, sum', hl, hm, hD, a0, a1, b0, b1, hab, hx, hx', hxx => by
    have hD1 := hD 1 le_rfl (by omega)
    rw [pow_one] at hD1
    have hm' : manhattan (p.map (· * lac)) (q.map (· * lac)) = d * |lac| ^ (i + 1) := by rw [manhattan_map_mul, hm]; ring
    have u := hs (seed - -1) _ _ (by simpa using hl) hD1.1 hD1.2
    rw [hm'] at u
    have v := h1 (seed - -1) _ hD1.1
    have v' := h1 (seed - -1) _ hD1.2
    simp only [Fractal.fbmLoop]
    have f : ∀ x : ℝ, |x| ≤ 1 → 0 ≤ lerp 1 ((x + 1) * 0.5) ws ∧ lerp 1 ((x + 1) * 0.5) ws ≤ 1 := by
      intro x hx
      have := abs_le.mp hx
      simp only [lerp, Num.fma]
      constructor <;> nlinarith
    have fd : |lerp 1 ((x + 1) * 0.5) ws - lerp 1 ((x' + 1) * 0.5) ws| ≤ ws / 2 * (K * (d * |lac| ^ i)) := by
      rw [show lerp 1 ((x + 1) * 0.5) ws - lerp 1 ((x' + 1) * 0.5) ws = ws / 2 * (x - x') by simp only [lerp, Num.fma]; ring, abs_mul, abs_of_nonneg (by linarith : 0 ≤ ws / 2)]
      exact mul_le_mul_of_nonneg_left hxx (by linarith)
    have fx := f x hx
    have fx' := f x' hx'
    generalize lerp 1 ((x + 1) * 0.5) ws = y at *
    generalize lerp 1 ((x' + 1) * 0.5) ws = y' at *
    have gi : 0 ≤ gain ^ i := pow_nonneg hg i
    have md := mul_diff (A := gain ^ i) (B := 1) (by rw [abs_of_nonneg b0]; exact b1) (by rw [abs_of_nonneg fx.1]; exact fx.2) hab fd
    have ad : |amp * y * gain - amp' * y' * gain| ≤ gain ^ (i + 1) * (ws / 2 * geometric |lac| (i + 1)) * (K * d) := by
      rw [← sub_mul, abs_mul, abs_of_nonneg hg, geometric_last]
      refine (mul_le_mul_of_nonneg_right md hg).trans (le_of_eq ?_)
      ring
    have am : ∀ amp y : ℝ, 0 ≤ amp → amp ≤ gain ^ i → 0 ≤ y → y ≤ 1 → 0 ≤ amp * y * gain ∧ amp * y * gain ≤ gain ^ (i + 1) := by
      intro amp y h0 h1 h2 h3
      refine ⟨by positivity, ?_⟩
      rw [pow_succ]
      exact mul_le_mul_of_nonneg_right ((mul_le_mul h1 h3 h2 gi).trans (by simp)) hg
    obtain ⟨c0, c1⟩ := am amp y a0 a1 fx.1 fx.2
    obtain ⟨e0, e1⟩ := am amp' y' b0 b1 fx'.1 fx'.2
    generalize amp * y * gain = z at *
    generalize amp' * y' * gain = z' at *
    refine (fbmLoop_weighted hs h1 hg w0 w1 n (i + 1) _ _ _ _ _ _ _ _ _ (by simpa using hl) hm' ?_ c0 c1 e0 e1 ad v v' u).trans ?_
    · intro j h1 h2
      rw [map_pow, map_pow]
      exact hD (j + 1) (by omega) (by omega)
    · have sd := mul_diff (A := 1) (B := gain ^ (i + 1)) v' (by rw [abs_of_nonneg c0]; exact c1) u ad
      generalize s (seed - -1) (p.map (· * lac)) = r at *
      generalize s (seed - -1) (q.map (· * lac)) = r' at *
      have t : |sum + r * z - (sum' + r' * z')| ≤ |sum - sum'| + |r * z - r' * z'| := by
        rw [show sum + r * z - (sum' + r' * z') = (sum - sum') + (r * z - r' * z') by ring]; exact abs_add_le _ _
      rw [Finset.sum_range_succ', add_zero, mul_add]
      have e : ∑ j ∈ Finset.range n, octaveRate gain (ws / 2) |lac| (i + 1 + (j + 1)) = ∑ j ∈ Finset.range n, octaveRate gain (ws / 2) |lac| (i + 1 + 1 + j) :=
        Finset.sum_congr rfl fun j _ => by congr 1; omega
      rw [e]
      have o : K * d * octaveRate gain (ws / 2) |lac| (i + 1) = K * (d * |lac| ^ (i + 1)) * gain ^ (i + 1) + 1 * (gain ^ (i + 1) * (ws / 2 * geometric |lac| (i + 1)) * (K * d)) := by
        unfold octaveRate; ring
      linarith

/-- **C76**: with a weighted strength in [0, 1], a gain of at least 0 and a source within [-1, 1], octave `j` of an FBm fractal adds at most `gain^j (lacunarity^j + weightedStrength / 2 (1 + .. + lacunarity^(j-1)))` times the rate of the
source. -/
theorem C76_fbm_weighted (hs : ChangesAtMost D K s) (h1 : StaysWithin D 1 s) {gain ws : ℝ} (hg : 0 ≤ gain) (w0 : 0 ≤ ws) (w1 : ws ≤ 1) (lac : ℝ) (octaves : ℤ) (ho : 1 ≤ octaves) :
    ChangesAtMost (fun p => ∀ i < octaves.toNat, D (p.map (· * lac ^ i))) (K * ∑ j ∈ Finset.range octaves.toNat, octaveRate gain (ws / 2) |lac| j)
      (Fractal.fbm ⟨Src.const gain, Src.const ws, octaves, lac⟩ s) := by
  obtain ⟨n, rfl⟩ : ∃ n : Nat, octaves = n + 1 := ⟨(octaves - 1).toNat, by omega⟩
  have e1 : ((n : ℤ) + 1 - 1).toNat = n := by omega
  have e2 : ((n : ℤ) + 1).toNat = n + 1 := by omega
  intro seed p q hl hp hq
  rw [e2] at *
  have d0 := hp 0 (by omega)
  have d1 := hq 0 (by omega)
  rw [map_one] at d0 d1
  have a := hs seed p q hl d0 d1
  simp only [Fractal.fbm, e1, Src.const, mul_one]
  refine (fbmLoop_weighted hs h1 hg w0 w1 (d := manhattan p q) n 0 seed p q 1 1 _ _ _ _ hl (by simp) (fun j _ h => ⟨hp j (by omega), hq j (by omega)⟩) zero_le_one (by simp) zero_le_one (by simp)
    (by simp [geometric]) (h1 seed p d0) (h1 seed q d1) (by simpa using a)).trans ?_
  rw [Finset.sum_range_succ', show octaveRate gain (ws / 2) |lac| 0 = 1 by simp [octaveRate, geometric]]
  have e : ∑ j ∈ Finset.range n, octaveRate gain (ws / 2) |lac| (0 + 1 + j) = ∑ j ∈ Finset.range n, octaveRate gain (ws / 2) |lac| (j + 1) :=
    Finset.sum_congr rfl fun j _ => by congr 1; omega
  rw [e]
  linarith

theorem ridgedLoop_weighted (hs : ChangesAtMost D K s) (h1 : StaysWithin D 1 s) {gain ws lac : ℝ} (hg : 0 ≤ gain) (w0 : 0 ≤ ws) (w1 : ws ≤ 1) {d : ℝ} :
    ∀ (n i : Nat) (seed : I32) (p q : Pos) (amp amp' x x' sum sum' : ℝ), p.length = q.length → manhattan p q = d * |lac| ^ i →
    (∀ j, 1 ≤ j → j ≤ n → D (p.map (· * lac ^ j)) ∧ D (q.map (· * lac ^ j))) → 0 ≤ amp → amp ≤ gain ^ i → 0 ≤ amp' → amp' ≤ gain ^ i →
    |amp - amp'| ≤ gain ^ i * (ws * geometric |lac| i) * (K * d) → 0 ≤ x → x ≤ 1 → 0 ≤ x' → x' ≤ 1 → |x - x'| ≤ K * (d * |lac| ^ i) →
    |Fractal.ridgedLoop s gain ws lac n seed p amp x sum - Fractal.ridgedLoop s gain ws lac n seed q amp' x' sum'| ≤
      |sum - sum'| + 2 * K * d * ∑ j ∈ Finset.range n, octaveRate gain (ws / 2) |lac| (i + 1 + j)
  | 0, i, seed, p, q, amp, amp', x, x', sum, sum', _, _, _, _, _, _, _, _, _, _, _, _, _ => by simp [Fractal.ridgedLoop]
  | n + 1, i, seed, p, q, amp, amp', x, x', sum, sum', hl, hm, hD, a0, a1, b0, b1, hab, hx0, hx1, hx0', hx1', hxx => by
    have hD1 := hD 1 le_rfl (by omega)
    rw [pow_one] at hD1
    have hm' : manhattan (p.map (· * lac)) (q.map (· * lac)) = d * |lac| ^ (i + 1) := by rw [manhattan_map_mul, hm]; ring
    have u := (abs_abs_sub_abs_le _ _).trans (hs (seed - -1) _ _ (by simpa using hl) hD1.1 hD1.2)
    rw [hm'] at u
    have v := h1 (seed - -1) _ hD1.1
    have v' := h1 (seed - -1) _ hD1.2
    have v0 := abs_nonneg (s (seed - -1) (p.map (· * lac)))
    have v0' := abs_nonneg (s (seed - -1) (q.map (· * lac)))
    simp only [Fractal.ridgedLoop]
    have f : ∀ x : ℝ, 0 ≤ x → x ≤ 1 → 0 ≤ lerp 1 (1 - x) ws ∧ lerp 1 (1 - x) ws ≤ 1 := by
      intro x h0 h1
      simp only [lerp, Num.fma]
      constructor <;> nlinarith
    have fd : |lerp 1 (1 - x) ws - lerp 1 (1 - x') ws| ≤ ws * (K * (d * |lac| ^ i)) := by
      rw [show lerp 1 (1 - x) ws - lerp 1 (1 - x') ws = -(ws * (x - x')) by simp only [lerp, Num.fma]; ring, abs_neg, abs_mul, abs_of_nonneg w0]
      exact mul_le_mul_of_nonneg_left hxx w0
    have fx := f x hx0 hx1
    have fx' := f x' hx0' hx1'
    generalize lerp 1 (1 - x) ws = y at *
    generalize lerp 1 (1 - x') ws = y' at *
    have gi : 0 ≤ gain ^ i := pow_nonneg hg i
    have md := mul_diff (A := gain ^ i) (B := 1) (by rw [abs_of_nonneg b0]; exact b1) (by rw [abs_of_nonneg fx.1]; exact fx.2) hab fd
    have ad : |amp * y * gain - amp' * y' * gain| ≤ gain ^ (i + 1) * (ws * geometric |lac| (i + 1)) * (K * d) := by
      rw [← sub_mul, abs_mul, abs_of_nonneg hg, geometric_last]
      refine (mul_le_mul_of_nonneg_right md hg).trans (le_of_eq ?_)
      ring
    have am : ∀ amp y : ℝ, 0 ≤ amp → amp ≤ gain ^ i → 0 ≤ y → y ≤ 1 → 0 ≤ amp * y * gain ∧ amp * y * gain ≤ gain ^ (i + 1) := by
      intro amp y h0 h1 h2 h3
      refine ⟨by positivity, ?_⟩
      rw [pow_succ]
      exact mul_le_mul_of_nonneg_right ((mul_le_mul h1 h3 h2 gi).trans (by simp)) hg
    obtain ⟨c0, c1⟩ := am amp y a0 a1 fx.1 fx.2
    obtain ⟨e0, e1⟩ := am amp' y' b0 b1 fx'.1 fx'.2
    generalize amp * y * gain = z at *
    generalize amp' * y' * gain = z' at *
    refine (ridgedLoop_weighted hs h1 hg w0 w1 n (i + 1) _ _ _ _ _ _ _ _ _ (by simpa using hl) hm' ?_ c0 c1 e0 e1 ad v0 v v0' v' u).trans ?_
    · intro j h1 h2
      rw [map_pow, map_pow]
      exact hD (j + 1) (by omega) (by omega)
    · generalize |s (seed - -1) (p.map (· * lac))| = r at *
      generalize |s (seed - -1) (q.map (· * lac))| = r' at *
      have u2 : |(r * -2 + 1) - (r' * -2 + 1)| ≤ 2 * (K * (d * |lac| ^ (i + 1))) := by
        rw [show (r * -2 + 1) - (r' * -2 + 1) = -2 * (r - r') by ring, abs_mul, abs_neg, abs_two]; linarith
      have r1 : |r' * -2 + 1| ≤ 1 := by rw [abs_le]; constructor <;> linarith
      have sd := mul_diff (A := 1) (B := gain ^ (i + 1)) r1 (by rw [abs_of_nonneg c0]; exact c1) u2 ad
      have t : |sum + (r * -2 + 1) * z - (sum' + (r' * -2 + 1) * z')| ≤ |sum - sum'| + |(r * -2 + 1) * z - (r' * -2 + 1) * z'| := by
        rw [show sum + (r * -2 + 1) * z - (sum' + (r' * -2 + 1) * z') = (sum - sum') + ((r * -2 + 1) * z - (r' * -2 + 1) * z') by ring]; exact abs_add_le _ _
      rw [Finset.sum_range_succ', add_zero, mul_add]
      have e : ∑ j ∈ Finset.range n, octaveRate gain (ws / 2) |lac| (i + 1 + (j + 1)) = ∑ j ∈ Finset.range n, octaveRate gain (ws / 2) |lac| (i + 1 + 1 + j) :=
        Finset.sum_congr rfl fun j _ => by congr 1; omega
      rw [e]
      have o : 2 * K * d * octaveRate gain (ws / 2) |lac| (i + 1) = 2 * (K * (d * |lac| ^ (i + 1))) * gain ^ (i + 1) + 1 * (gain ^ (i + 1) * (ws * geometric |lac| (i + 1)) * (K * d)) := by
        unfold octaveRate; ring
      linarith

/-- **C76**: a ridged fractal with a weighted strength at most twice that. -/
theorem C76_ridged_weighted (hs : ChangesAtMost D K s) (h1 : StaysWithin D 1 s) {gain ws : ℝ} (hg : 0 ≤ gain) (w0 : 0 ≤ ws) (w1 : ws ≤ 1) (lac : ℝ) (octaves : ℤ) (ho : 1 ≤ octaves) :
    ChangesAtMost (fun p => ∀ i < octaves.toNat, D (p.map (· * lac ^ i))) (2 * K * ∑ j ∈ Finset.range octaves.toNat, octaveRate gain (ws / 2) |lac| j)
      (Fractal.ridged ⟨Src.const gain, Src.const ws, octaves, lac⟩ s) := by
  obtain ⟨n, rfl⟩ : ∃ n : Nat, octaves = n + 1 := ⟨(octaves - 1).toNat, by omega⟩
  have e1 : ((n : ℤ) + 1 - 1).toNat = n := by omega
  have e2 : ((n : ℤ) + 1).toNat = n + 1 := by omega
  intro seed p q hl hp hq
  rw [e2] at *
  have d0 := hp 0 (by omega)
  have d1 := hq 0 (by omega)
  rw [map_one] at d0 d1
  have a := (abs_abs_sub_abs_le _ _).trans (hs seed p q hl d0 d1)
  simp only [Fractal.ridged, e1, Src.const, mul_one]
  refine (ridgedLoop_weighted hs h1 hg w0 w1 (d := manhattan p q) n 0 seed p q 1 1 _ _ _ _ hl (by simp) (fun j _ h => ⟨hp j (by omega), hq j (by omega)⟩) zero_le_one (by simp) zero_le_one (by simp)
    (by simp [geometric]) (abs_nonneg _) (h1 seed p d0) (abs_nonneg _) (h1 seed q d1) (by simpa using a)).trans ?_
  rw [Finset.sum_range_succ', show octaveRate gain (ws / 2) |lac| 0 = 1 by simp [octaveRate, geometric]]
  have e : ∑ j ∈ Finset.range n, octaveRate gain (ws / 2) |lac| (0 + 1 + j) = ∑ j ∈ Finset.range n, octaveRate gain (ws / 2) |lac| (j + 1) :=
    Finset.sum_congr rfl fun j _ => by congr 1; omega
  rw [e]
  generalize |s seed p| = u at *
  generalize |s seed q| = v at *
  rw [show u * -2 + 1 - (v * -2 + 1) = -2 * (u - v) by ring, abs_mul, abs_neg, abs_two]
  linarith

/-! ## Domain warps -/

theorem interp_affine (c d : ℝ) : ∀ (ts : List ℝ) (f : List Bool → ℝ), interp (fun bs => f bs * c - d) ts = interp f ts * c - d
  | [], _ => rfl
  | t :: ts, f => by
    simp only [interp]
    rw [← interp_affine c d ts]
    congr 1
    funext bs
    simp only [lerp, Num.fma]; ring

theorem axisWarp_rate (seed : I32) (x y : Pos) (k : Nat) (hl : x.length = y.length) (hx : ∀ a ∈ x, InRange a) (hy : ∀ a ∈ y, InRange a) :
    |Fractal.axisWarp seed x k - Fractal.axisWarp seed y k| ≤ 3 * manhattan x y := by
  have e : ∀ z : Pos, (∀ a ∈ z, InRange a) → Fractal.axisWarp seed z k =
      blend interpHermite (fun ks _ => ((Fractal.field z.length k (hashPrimesHB seed (primed (ks.map (BitVec.ofInt 32))))).toInt : ℝ) * (1 / (Fractal.fieldMax z.length / 2)) - 1) z := by
    intro z hz
    rw [Fractal.axisWarp_eq, ← interp_affine]
    refine interp_congr _ _ _ fun bs _ => ?_
    rw [corner_eq _ _ hz]
  rw [e x hx, e y hy, ← hl]
  refine (blend_lipschitz hermite_weight (G := 0) (B := 1) le_rfl (by norm_num) x y _ hl (by intro ks xs ys _ _ _; simp) ?_).trans (le_of_eq (by ring))
  intro ks xs _ _
  have h := Fractal.field_range x.length k (hashPrimesHB seed (primed (ks.map (BitVec.ofInt 32))))
  have hp := Fractal.fieldMax_pos x.length
  generalize ((Fractal.field x.length k (hashPrimesHB seed (primed (ks.map (BitVec.ofInt 32))))).toInt : ℝ) = v at h
  have e : v * (1 / (Fractal.fieldMax x.length / 2)) = 2 * (v / Fractal.fieldMax x.length) := by field_simp
  have h0 : 0 ≤ v / Fractal.fieldMax x.length := div_nonneg h.1 hp.le
  have h1 : v / Fractal.fieldMax x.length ≤ 1 := (div_le_one hp).mpr h.2
  rw [e, abs_le]
  constructor <;> linarith

/-- **C76**: a gradient domain warp of constant amplitude multiplies the rate with at most `1 + 3 n amplitude / scale` (n = number of dimensions, axis scales at most `S`). -/
theorem C76_gradient_warp (hK : 0 ≤ K) (hs : ChangesAtMost D K s) (n : Nat) (off off2 : I32) (amp scale : ℝ) (axis : Nat → ℝ) {S : ℝ} (hS : ∀ k, |axis k| ≤ S) :
    ChangesAtMost (fun p => p.length = n ∧ PosFits scale p ∧ ∀ q, Around (|amp| * S) p q → D q) (K * (1 + 3 * n * (|amp| * S / |scale|)))
      (Fractal.domainWarp (Fractal.gradientWarp off axis) off2 scale (Src.const amp) s) := by
  intro seed p q hpq hp hq
  have close : ∀ p : Pos, Around (|amp| * S) p (Fractal.gradientWarp off axis (seed + off2) (Src.const amp seed p) (scalePositions (frequency scale) p) p).1 := by
    intro p
    refine around_mapIdx p _ fun k a => ?_
    simp only [Num.fma, Src.const]
    rw [add_sub_cancel_right, abs_mul, abs_mul amp]
    have w := Fractal.axisWarp_range (seed + off2 + off) (scalePositions (frequency scale) p) k
    have := mul_le_mul w (mul_le_mul_of_nonneg_left (hS k) (abs_nonneg amp)) (by positivity) zero_le_one
    rwa [one_mul] at this
  refine (hs seed _ _ (by simpa [Fractal.gradientWarp] using hpq) (hp.2.2 _ (close p)) (hq.2.2 _ (close q))).trans ?_
  rw [mul_assoc]
  refine mul_le_mul_of_nonneg_left ?_ hK
  simp only [Fractal.gradientWarp, Src.const]
  have hS0 : 0 ≤ S := (abs_nonneg _).trans (hS 0)
  refine (manhattan_mapIdx (c := 1) (E := 3 * (manhattan p q * |frequency scale|) * (|amp| * S)) p q _ _ hpq ?_).trans (le_of_eq ?_)
  · intro k a b
    have w := axisWarp_rate (seed + off2 + off) (scalePositions (frequency scale) p) (scalePositions (frequency scale) q) k (by simpa [scalePositions] using hpq)
      (posFits_inRange hp.2.1) (posFits_inRange hq.2.1)
    rw [manhattan_scale] at w
    simp only [Num.fma]
    generalize Fractal.axisWarp _ (scalePositions (frequency scale) p) k = u at *
    generalize Fractal.axisWarp _ (scalePositions (frequency scale) q) k = v at *
    rw [show u * (amp * axis k) + a - (v * (amp * axis k) + b) = (a - b) + (u - v) * (amp * axis k) by ring, one_mul]
    refine (abs_add_le _ _).trans (add_le_add le_rfl ?_)
    rw [abs_mul, abs_mul amp]
    exact mul_le_mul w (mul_le_mul_of_nonneg_left (hS k) (abs_nonneg _)) (by positivity) ((abs_nonneg _).trans w)
  · rw [hp.1, frequency, abs_div, abs_one]; ring

/-! ## A tree -/

/-- Non-vacuity: 5 octaves of Perlin noise (scale 100, default range, gain 0.5, lacunarity 2) never change by more than 0.5 per unit: at two positions less than 1000000 units from the origin, one unit apart. -/
example (ft : Feat) (seed : I32) (x y : ℝ) (hx : |x| ≤ 1000000) (hy : |y| ≤ 1000000) (hx1 : |x + 1| ≤ 1000000) :
    |Fractal.fbm ⟨Src.const 0.5, Src.const 0, 5, 2⟩ (perlin ft (rangeAfter []) 100 0) seed [x, y] - Fractal.fbm ⟨Src.const 0.5, Src.const 0, 5, 2⟩ (perlin ft (rangeAfter []) 100 0) seed [x + 1, y]| ≤ 0.5 := by
  have hs := (C76_sources ft [] 100 0 0).2.2
  have fit : ∀ x : ℝ, |x| ≤ 1000000 → ∀ i < (5 : ℤ).toNat, 2 ≤ (List.map (· * (2 : ℝ) ^ i) [x, y]).length ∧ (List.map (· * (2 : ℝ) ^ i) [x, y]).length ≤ 4 ∧ PosFits 100 ([x, y].map (· * (2 : ℝ) ^ i)) := by
    intro x hx i hi
    refine ⟨by simp, by simp, ?_⟩
    have hi' : i ≤ 4 := by have : (5 : ℤ).toNat = 5 := rfl; omega
    have p1 : (2 : ℝ) ^ i ≤ 2 ^ 4 := pow_le_pow_right₀ (by norm_num) hi'
    have p0 : (0 : ℝ) < 2 ^ i := by positivity
    have key : ∀ z : ℝ, |z| ≤ 1000000 → -2 ^ 31 ≤ z * 2 ^ i / 100 ∧ z * 2 ^ i / 100 < 2 ^ 31 := by
      intro z hz
      have := abs_le.mp hz
      constructor
      · rw [le_div_iff₀ (by norm_num)]; nlinarith
      · rw [div_lt_iff₀ (by norm_num)]; nlinarith
    intro a ha
    simp only [List.map_cons, List.map_nil, List.mem_cons, List.not_mem_nil, or_false] at ha
    rcases ha with rfl | rfl
    · exact key x hx
    · exact key y hy
  have := C76_fbm hs 0.5 2 5 (by norm_num) seed [x, y] [x + 1, y] rfl (fit x hx) (fit (x + 1) hx1)
  refine this.trans ?_
  have m : manhattan [x, y] [x + 1, y] = 1 := by simp [manhattan]
  have g : geometric |(0.5 : ℝ) * 2| (5 : ℤ).toNat = 5 := by
    rw [show |(0.5 : ℝ) * 2| = 1 by norm_num]
    simp [geometric]
  rw [m, g]
  norm_num [lastMax, lastMin, abs_of_pos]

/-- Non-vacuity: that a warped Value noise (noise of scale 50, warp of scale 100 and amplitude 30) in 2D changes by at most 3/50 * (1 + 6 * 0.3) per unit, around any position in reach. -/
example (seed : I32) (x y : ℝ) (hx : |x| ≤ 1000000) (hy : |y| ≤ 1000000) (hx1 : |x + 1| ≤ 1000000) :
    let node := Fractal.domainWarp (Fractal.gradientWarp 0 fun _ => 1) 0 100 (Src.const 30) (value (rangeAfter []) 50 0)
    |node seed [x, y] - node seed [x + 1, y]| ≤ 0.168 := by
  intro node
  have hs := (C76_sources ⟨false, false, false, false, false⟩ [] 50 0 0).2.1
  have fit : ∀ x : ℝ, |x| ≤ 1000000 → [x, y].length = 2 ∧ PosFits 100 [x, y] ∧ ∀ q, Around (|30| * 1) [x, y] q → PosFits 50 q := by
    intro x hx
    have a1 := abs_le.mp hx
    have a2 := abs_le.mp hy
    refine ⟨rfl, ?_, ?_⟩
    · intro a ha
      simp only [List.mem_cons, List.not_mem_nil, or_false] at ha
      rcases ha with rfl | rfl <;> constructor <;> linarith
    · intro q hq a ha
      obtain ⟨u, v, rfl⟩ := List.length_eq_two.mp hq.length_eq.symm
      simp only [Around, List.forall₂_cons, List.Forall₂.nil, and_true] at hq
      have b1 := abs_le.mp hq.1
      have b2 := abs_le.mp hq.2
      norm_num [abs_of_pos] at b1 b2
      simp only [List.mem_cons, List.not_mem_nil, or_false] at ha
      rcases ha with rfl | rfl <;> constructor <;> linarith
  have := C76_gradient_warp (by positivity) hs 2 0 0 30 100 (fun _ => 1) (S := 1) (by simp) seed [x, y] [x + 1, y] rfl (fit x hx) (fit (x + 1) hx1)
  refine this.trans ?_
  have m : manhattan [x, y] [x + 1, y] = 1 := by simp [manhattan]
  rw [m]
  norm_num [lastMax, lastMin, abs_of_pos]

/-- Non-vacuity: Value noise (scale 100, default range) stays within [-1, 1], so both weighted fractals have such a rate. -/
example (lac : ℝ) : ChangesAtMost (fun p => ∀ i < (3 : ℤ).toNat, PosFits 100 (p.map (· * lac ^ i)))
    (3 * (|lastMax ([] : List (SetOp ℝ)) - lastMin []| / 2) / |100| * ∑ j ∈ Finset.range (3 : ℤ).toNat, octaveRate 0.5 (0.4 / 2) |lac| j)
    (Fractal.fbm ⟨Src.const 0.5, Src.const 0.4, 3, lac⟩ (value (rangeAfter []) 100 0)) := by
  refine C76_fbm_weighted (C76_sources ⟨false, false, false, false, false⟩ [] 100 0 0).2.1 ?_ (by norm_num) (by norm_num) (by norm_num) lac 3 (by norm_num)
  intro seed p _
  have := C36_value_range [] 100 0 seed p
  norm_num [lastMin, lastMax] at this
  exact abs_le.mpr this

/-- Non-vacuity of the theorems on blends and modifiers: a tree of eight nodes over two Value noises of scales 100 and 50 (rates 0.03 and 0.06): `min(Remap(Abs(v)), Fade(v, PingPong(w)))` smoothly maximised with `v * w`. -/
example (sm f : ℝ) : ChangesAtMost (fun p => PosFits 100 p ∧ PosFits 50 p) (max (max (0.03 * (|3 - 1| / |1 - (-1)|)) (max 0.03 (0.06 * |2|))) (1 * 0.06 + 1 * 0.03))
    (Modifiers.maxSmooth (Src.const sm)
      (Modifiers.blend .min (Modifiers.remap true (Src.const (-1)) (Src.const 1) (Src.const 1) (Src.const 3) (Modifiers.absNode (value (rangeAfter []) 100 0)))
        (Modifiers.fade .hermite (value (rangeAfter []) 100 0) (Modifiers.pingPong (Src.const 2) (value (rangeAfter []) 50 0)) (Src.const f) (Src.const 0) (Src.const 1)))
      (Modifiers.blend .multiply (value (rangeAfter []) 100 0) (value (rangeAfter []) 50 0))) := by
  have rg : |lastMax ([] : List (SetOp ℝ)) - lastMin []| / 2 = 1 := by norm_num [lastMax, lastMin, abs_of_pos]
  have v : ChangesAtMost (fun p => PosFits 100 p ∧ PosFits 50 p) 0.03 (value (rangeAfter []) 100 0) := by
    intro seed p q hl hp hq
    refine ((C76_sources ⟨false, false, false, false, false⟩ [] 100 0 0).2.1 seed p q hl hp.1 hq.1).trans (le_of_eq ?_)
    rw [rg]; norm_num [abs_of_pos]
  have w : ChangesAtMost (fun p => PosFits 100 p ∧ PosFits 50 p) 0.06 (value (rangeAfter []) 50 0) := by
    intro seed p q hl hp hq
    refine ((C76_sources ⟨false, false, false, false, false⟩ [] 50 0 0).2.1 seed p q hl hp.2 hq.2).trans (le_of_eq ?_)
    rw [rg]; norm_num [abs_of_pos]
  have one : ∀ sc : ℝ, StaysWithin (fun p => PosFits 100 p ∧ PosFits 50 p) 1 (value (rangeAfter []) sc 0) := by
    intro sc seed p _
    have := C36_value_range [] sc 0 seed p
    norm_num [lastMin, lastMax] at this
    exact abs_le.mpr this
  exact (C76_smooth sm
    (C76_blends (A := 1) (B := 1) (C76_modifiers (C76_modifiers v 1 0 1 0 1 true).1 1 (-1) 1 1 3 true).2.2 (C76_fade .hermite f 0 1 v (C76_modifiers w 2 0 1 0 1 true).2.1)).2.2.1
    ((C76_blends v w).2.2.2.2 (one 100) (one 50))).2

/-- Non-vacuity of the theorems on the domain: Value noise of scale 100 with its x axis stretched by 2, shifted by 7, with a third coordinate 5, and a 3D noise with one of its axes removed, near the origin. -/
example (seed : I32) (x y : ℝ) (hx : |x| ≤ 1000) (hy : |y| ≤ 1000) (hx1 : |x + 1| ≤ 1000) :
    let node := Modifiers.domainScale 2 (Modifiers.addDimension (Src.const 5) (value (rangeAfter []) 100 0))
    |node seed [x, y] - node seed [x + 1, y]| ≤ 0.06 := by
  intro node
  have rg : |lastMax ([] : List (SetOp ℝ)) - lastMin []| / 2 = 1 := by norm_num [lastMax, lastMin, abs_of_pos]
  have hs := (C76_sources ⟨false, false, false, false, false⟩ [] 100 0 0).2.1
  have h5 : StaysWithin (fun _ => True) 5 (Src.const 5) := fun _ _ _ => by norm_num [Src.const, abs_of_pos]
  have hr : ChangesAtMost (fun _ => True) 0 (Src.const 5) := fun _ p q _ _ _ => by simp [Src.const]
  have hK : 0 ≤ 3 * (|lastMax ([] : List (SetOp ℝ)) - lastMin []| / 2) / |(100 : ℝ)| := by positivity
  have ha := (C76_domain hK hs 1 (fun _ => 1) (fun _ => 0) (S := 1) (by simp) 0 hr h5).2.2.2.2
  have hd := (C76_domain (by positivity) ha 2 (fun _ => 1) (fun _ => 0) (S := 1) (by simp) 0 hr h5).1
  have fit : ∀ x : ℝ, |x| ≤ 1000 → ([x, y].map (· * 2)).length ≠ 4 ∧ ∀ w, |w| ≤ 5 → PosFits 100 ([x, y].map (· * 2) ++ [w]) := by
    intro x hx
    refine ⟨by simp, fun w hw a ha => ?_⟩
    have := abs_le.mp hx; have := abs_le.mp hy; have := abs_le.mp hw
    simp only [List.map_cons, List.map_nil, List.cons_append, List.nil_append, List.mem_cons, List.not_mem_nil, or_false] at ha
    rcases ha with rfl | rfl | rfl <;> constructor <;> linarith
  have := hd seed [x, y] [x + 1, y] rfl (fit x hx) (fit (x + 1) hx1)
  refine this.trans ?_
  have m : manhattan [x, y] [x + 1, y] = 1 := by simp [manhattan]
  rw [m, rg]
  norm_num [abs_of_pos]

/-- Non-vacuity: removing an axis of Value noise, and shifting it by another Value noise of amplitude 1, near the origin. -/
example : (∀ q, q.Sublist [3, 5, 7] → PosFits 100 q) ∧ ([3, 5].length = 2 ∧ PosFits 50 [3, 5] ∧ ∀ q, Around 1 [3, 5] q → PosFits 100 q) := by
  refine ⟨?_, rfl, ?_, ?_⟩
  · intro q hq a ha
    have := hq.subset ha
    simp only [List.mem_cons, List.not_mem_nil, or_false] at this
    rcases this with rfl | rfl | rfl <;> constructor <;> norm_num
  · intro a ha
    simp only [List.mem_cons, List.not_mem_nil, or_false] at ha
    rcases ha with rfl | rfl <;> constructor <;> norm_num
  · intro q hq a ha
    obtain ⟨u, v, rfl⟩ := List.length_eq_two.mp hq.length_eq.symm
    simp only [Around, List.forall₂_cons, List.Forall₂.nil, and_true] at hq
    have b1 := abs_le.mp hq.1
    have b2 := abs_le.mp hq.2
    simp only [List.mem_cons, List.not_mem_nil, or_false] at ha
    rcases ha with rfl | rfl <;> constructor <;> linarith

end
end FastNoise.Rate
