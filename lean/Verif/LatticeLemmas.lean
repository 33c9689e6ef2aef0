import Verif.Lattice
import Verif.NumLemmas
import Verif.GradientProps
import Mathlib.Topology.Order.OrderClosed
import Mathlib.Topology.Instances.Real.Lemmas
import Mathlib.Topology.Piecewise
/-! Lemmas for the lattice noises. -/
namespace FastNoise.Lattice
open FastNoise.Hash FastNoise.Num FastNoise.Basic FastNoise.Gradient Topology

theorem interp_mem (lo hi : ℝ) : ∀ (ts : List ℝ) (f : List Bool → ℝ), (∀ t ∈ ts, 0 ≤ t ∧ t ≤ 1) →
    (∀ bs, bs.length = ts.length → lo ≤ f bs ∧ f bs ≤ hi) → lo ≤ interp f ts ∧ interp f ts ≤ hi
  | [], f, _, hf => hf [] rfl
  | t :: ts, f, ht, hf => by
    refine interp_mem lo hi ts _ (fun s hs => ht s (by simp [hs])) ?_
    intro bs hbs
    have h0 := hf (false :: bs) (by simp [hbs])
    have h1 := hf (true :: bs) (by simp [hbs])
    have ht' := ht t (by simp)
    simp only [lerp, Num.fma]
    constructor <;> nlinarith

/-- With all weights 0 only the low corner counts. -/
theorem interp_zero : ∀ (ts : List ℝ) (f : List Bool → ℝ), (∀ t ∈ ts, t = 0) → interp f ts = f (List.replicate ts.length false)
  | [], f, _ => rfl
  | t :: ts, f, h => by
    have h0 := h t (by simp)
    rw [interp, interp_zero ts _ (fun s hs => h s (by simp [hs]))]
    simp [lerp, Num.fma, h0, List.replicate_succ]

theorem interp_congr : ∀ (ts : List ℝ) (f g : List Bool → ℝ), (∀ bs, bs.length = ts.length → f bs = g bs) → interp f ts = interp g ts
  | [], _, _, h => h [] rfl
  | _ :: ts, f, g, h => interp_congr ts _ _ (fun bs hb => by rw [h _ (by simp [hb]), h _ (by simp [hb])])

/-! ## Continuity -/

section cont
variable {X : Type} [TopologicalSpace X]

/-- One axis: gluing the pieces of the cells. -/
theorem axis_continuous (h : ℝ → ℝ) (hc : Continuous h) (h0 : h 0 = 0) (h1 : h 1 = 1) (a : X → ℝ) (ha : Continuous a) (c : ℤ → X → ℝ)
    (hcc : ∀ k, Continuous (c k)) :
    Continuous fun x => lerp (c ⌊a x⌋ x) (c (⌊a x⌋ + 1) x) (h (a x - (⌊a x⌋ : ℤ))) := by
  rw [continuous_iff_continuousAt]
  intro x0
  let k := ⌊a x0⌋
  have hG : Continuous fun x => if (k : ℝ) ≤ a x then lerp (c k x) (c (k + 1) x) (h (a x - k)) else lerp (c (k - 1) x) (c k x) (h (a x - (k - 1))) := by
    refine Continuous.if_le ?_ ?_ continuous_const ha ?_
    · have := hcc k; have := hcc (k + 1)
      simp only [lerp, Num.fma]
      fun_prop
    · have := hcc k; have := hcc (k - 1)
      simp only [lerp, Num.fma]
      fun_prop
    · intro x hx
      rw [← hx]
      simp only [sub_self, h0, lerp, Num.fma]
      rw [show (k : ℝ) - (k - 1) = 1 by ring, h1]
      ring
  refine hG.continuousAt.congr ?_
  have hopen : {x | (k : ℝ) - 1 < a x ∧ a x < k + 1} ∈ 𝓝 x0 := by
    apply IsOpen.mem_nhds
    · exact (isOpen_lt continuous_const ha).inter (isOpen_lt ha continuous_const)
    · have := Int.floor_le (a x0); have := Int.lt_floor_add_one (a x0)
      exact ⟨by simp only [k]; linarith, by simp only [k]; linarith⟩
  filter_upwards [hopen] with x hx
  by_cases hk : (k : ℝ) ≤ a x
  · have : ⌊a x⌋ = k := Int.floor_eq_iff.mpr ⟨hk, hx.2⟩
    rw [if_pos hk, this]
  · have : ⌊a x⌋ = k - 1 := Int.floor_eq_iff.mpr ⟨by push_cast; linarith [hx.1], by push_cast; linarith⟩
    rw [if_neg hk, this]
    push_cast
    simp

/-- Integer lattice coordinates of a corner. -/
noncomputable def cornerZ (x : List ℝ) (bs : List Bool) : List ℤ := List.zipWith (fun x b => ⌊x⌋ + if b then 1 else 0) x bs

/-- All axes. -/
theorem interp_continuous (h : ℝ → ℝ) (hc : Continuous h) (h0 : h 0 = 0) (h1 : h 1 = 1) :
    ∀ (as : List (X → ℝ)) (C : List ℤ → X → ℝ), (∀ a ∈ as, Continuous a) → (∀ m, m.length = as.length → Continuous (C m)) →
      Continuous fun x => interp (fun bs => C (cornerZ (as.map (· x)) bs) x) ((as.map (· x)).map fun t => h (t - (⌊t⌋ : ℤ)))
  | [], C, _, hC => by
    simp only [List.map_nil, interp, cornerZ, List.zipWith_nil_left]
    exact hC [] rfl
  | a :: as, C, ha, hC => by
    have ih := interp_continuous h hc h0 h1 as
      (fun m x => lerp (C (⌊a x⌋ :: m) x) (C ((⌊a x⌋ + 1) :: m) x) (h (a x - (⌊a x⌋ : ℤ))))
      (fun b hb => ha b (by simp [hb]))
      (fun m hm => axis_continuous h hc h0 h1 a (ha a (by simp)) (fun k => C (k :: m)) (fun k => hC _ (by simp [hm])))
    simp only [List.map_cons, interp, cornerZ, List.zipWith_cons_cons, if_true, Bool.false_eq_true, if_false, add_zero] at ih ⊢
    exact ih

end cont

/-! ## Corners in terms of integers -/

/-- The scaled coordinate lies in the range of a 32 bit integer. -/
def InRange (x : ℝ) : Prop := -2 ^ 31 ≤ ⌊x⌋ ∧ ⌊x⌋ < 2 ^ 31

theorem convertI32_floor {x : ℝ} (h : InRange x) : convertI32 (⌊x⌋ : ℤ) = BitVec.ofInt 32 ⌊x⌋ := by
  unfold convertI32
  rw [roundEven_int]
  exact if_pos h

theorem corner_eq (x : Pos) (bs : List Bool) (h : ∀ a ∈ x, InRange a) :
    corner x bs = primed ((cornerZ x bs).map (BitVec.ofInt 32)) := by
  apply List.ext_getElem
  · simp only [corner, primed, cornerZ, List.length_zipWith, List.length_zip, List.length_map]; omega
  · intro i h1 h2
    simp only [corner, primed, cornerZ, List.length_zipWith, List.length_zip, List.length_map] at h1 h2
    simp only [corner, primed, cornerZ, List.getElem_zipWith, List.getElem_zip, List.getElem_map, axisCorner]
    rw [convertI32_floor (h _ (List.getElem_mem _))]
    by_cases hb : bs[i]
    · simp only [hb, if_true, BitVec.ofInt_add]
      rw [BitVec.add_mul]; simp
    · simp [hb]

theorem offset_eq (x : Pos) (bs : List Bool) : offset x bs = List.zipWith (fun (a : ℝ) (k : ℤ) => a - k) (x.take bs.length) (cornerZ x bs) := by
  apply List.ext_getElem
  · simp only [offset, cornerZ, List.length_zipWith, List.length_take]; omega
  · intro i h1 h2
    have hi : i < bs.length := by simp only [offset, List.length_zipWith] at h1; omega
    simp only [offset, cornerZ, List.getElem_zipWith, List.getElem_take]
    by_cases hb : bs[i]
    · simp only [hb, if_true]; push_cast; ring
    · simp [hb]

theorem toInt_range (v : I32) : -valueBounds ≤ (v.toInt : ℝ) ∧ (v.toInt : ℝ) ≤ valueBounds := by
  have h1 := BitVec.le_toInt v
  have h2 := BitVec.toInt_lt (x := v)
  unfold valueBounds
  constructor
  · have : (-2147483648 : ℤ) ≤ v.toInt := by simpa using h1
    exact_mod_cast this
  · have : v.toInt ≤ 2147483648 := by
      have : v.toInt < 2147483648 := by simpa using h2
      omega
    exact_mod_cast this

theorem fract_range (x : ℝ) : 0 ≤ x - (⌊x⌋ : ℤ) ∧ x - (⌊x⌋ : ℤ) ≤ 1 := by
  have := Int.floor_le x; have := Int.lt_floor_add_one x
  constructor <;> linarith

/-- Gradients are linear, hence continuous. -/
theorem gradDot_continuous {X : Type} [TopologicalSpace X] (ft : Feat) (h : I32) (as : List (X → ℝ)) (ha : ∀ a ∈ as, Continuous a) :
    Continuous fun x => gradDot ft h (as.map (· x)) := by
  match as, ha with
  | [], _ => simpa [gradDot] using continuous_const
  | [_], _ => simpa [gradDot] using continuous_const
  | [a, b], ha =>
    have := ha a (by simp); have := ha b (by simp)
    simp only [List.map_cons, List.map_nil, gradDot, dotPerlin2_eq, dot2]
    fun_prop
  | [a, b, c], ha =>
    have := ha a (by simp); have := ha b (by simp); have := ha c (by simp)
    simp only [List.map_cons, List.map_nil, gradDot, dotCommon_eq, dot3]
    fun_prop
  | [a, b, c, d], ha =>
    have := ha a (by simp); have := ha b (by simp); have := ha c (by simp); have := ha d (by simp)
    simp only [List.map_cons, List.map_nil, gradDot, dotPerlin4_eq, dot4]
    fun_prop
  | _ :: _ :: _ :: _ :: _ :: _, _ => simpa [gradDot] using continuous_const

/-- At the lattice point itself the gradient contributes nothing. -/
theorem gradDot_zero (ft : Feat) (h : I32) (n : Nat) : gradDot ft h (List.replicate n 0) = 0 := by
  match n with
  | 0 | 1 => rfl
  | 2 => simp [List.replicate, gradDot, dotPerlin2_eq, dot2]
  | 3 => simp [List.replicate, gradDot, dotCommon_eq, dot3]
  | 4 => simp [List.replicate, gradDot, dotPerlin4_eq, dot4]
  | n + 5 => simp [List.replicate, gradDot]

/-! ## Bounds -/

/-- The quintic fade on the unit interval. -/
theorem quintic_symm (t : ℝ) : interpQuintic (1 - t) = 1 - interpQuintic t := by
  simp only [interpQuintic, Num.fma]; ring

theorem quintic_half {t : ℝ} (h0 : 0 ≤ t) (h : t ≤ 1 / 2) : 0 ≤ interpQuintic t ∧ interpQuintic t ≤ 1 / 2 := by
  simp only [interpQuintic, Num.fma]
  have e : 0 ≤ t * (t * 6 + -15) + 10 := by nlinarith
  constructor
  · positivity
  · -- 1/2 - h = (1/2 - t) (1 + 2t + 4t^2 - 12 t^3 + 6 t^4 ..)
    have : 1 / 2 - t * t * t * (t * (t * 6 + -15) + 10) = (1 / 2 - t) * (1 + 2 * t + 4 * t ^ 2 - 12 * t ^ 3 + 6 * t ^ 4) := by ring
    have h2 : 0 ≤ 1 + 2 * t + 4 * t ^ 2 - 12 * t ^ 3 + 6 * t ^ 4 := by
      have : 12 * t ^ 3 ≤ 6 * t ^ 2 := by nlinarith [sq_nonneg t]
      have : 0 ≤ t ^ 4 := by positivity
      nlinarith
    nlinarith

/-- Distance to the nearest integer of a fractional part. -/
noncomputable def fold (t : ℝ) : ℝ := min t (1 - t)

/-- The mean distance to the two lattice planes of one axis. -/
noncomputable def phi (t : ℝ) : ℝ := (1 - interpQuintic t) * t + interpQuintic t * (1 - t)

theorem phi_symm (t : ℝ) : phi (1 - t) = phi t := by simp only [phi, quintic_symm]; ring

theorem phi_eq (t : ℝ) : phi t = t + interpQuintic t * (1 - 2 * t) := by simp only [phi]; ring

theorem phi_le_half {t : ℝ} (h0 : 0 ≤ t) (h1 : t ≤ 1) : phi t ≤ 1 / 2 := by
  have key : ∀ s : ℝ, 0 ≤ s → s ≤ 1 / 2 → phi s ≤ 1 / 2 := by
    intro s hs0 hs
    have := quintic_half hs0 hs
    rw [phi_eq]
    nlinarith
  rcases le_total t (1 / 2) with h | h
  · exact key t h0 h
  · rw [← phi_symm]; exact key _ (by linarith) (by linarith)

/-- The one-variable bound behind `kBounding` in 2D. -/
theorem bound2 {u R : ℝ} (h0 : 0 ≤ u) (h : u ≤ 1 / 2) (hR : R ≤ 0.70710678119) :
    1 / 2 + R + u + (1 + R) * (interpQuintic u * (1 - 2 * u)) ≤ 1.726796627044677734375 := by
  have hq := quintic_half h0 h
  have hpos : 0 ≤ interpQuintic u * (1 - 2 * u) := mul_nonneg hq.1 (by linarith)
  have step : 1 / 2 + R + u + (1 + R) * (interpQuintic u * (1 - 2 * u)) ≤
      1 / 2 + 0.70710678119 + u + (1 + 0.70710678119) * (interpQuintic u * (1 - 2 * u)) := by nlinarith
  refine step.trans ?_
  simp only [interpQuintic, Num.fma]
  have q : 0 ≤ (2.63819789385135933581973488929033014510417381261354) + (6.81179216819505557750868887936258385113136) * u + (17.3026027942574117986240338865596) * u ^ 2 + (-43.271805154689771879528) * u ^ 3 + (20.48528137428) * u ^ 4 := by
    have h2 : 0 ≤ u ^ 2 := by positivity
    have h3 : u ^ 3 ≤ u ^ 2 / 2 := by nlinarith
    have h4 : 0 ≤ u ^ 4 := by positivity
    have h5 : u ^ 2 ≤ 1 / 4 := by nlinarith
    linarith
  have m := mul_nonneg (sq_nonneg (u - 0.4438318087)) q
  nlinarith [m]

/-- The one-variable bound used in 3D and 4D. -/
theorem bound34 {u : ℝ} (h0 : 0 ≤ u) (h : u ≤ 1 / 2) : interpQuintic u * (1 - 2 * u) ≤ 0.071 := by
  simp only [interpQuintic, Num.fma]
  have q : 0 ≤ 0.579090342779366 + 3.317117309008 * u + 14.25214916 * u ^ 2 + (-27.6216) * u ^ 3 + 12 * u ^ 4 := by
    have h2 : 0 ≤ u ^ 2 := by positivity
    have h3 : u ^ 3 ≤ u ^ 2 / 2 := by nlinarith
    have h4 : 0 ≤ u ^ 4 := by positivity
    linarith
  have m := mul_nonneg (sq_nonneg (u - 0.3491)) q
  nlinarith [m]

theorem interp_abs_le : ∀ (ts : List ℝ) (f F : List Bool → ℝ), (∀ t ∈ ts, 0 ≤ t ∧ t ≤ 1) →
    (∀ bs, bs.length = ts.length → |f bs| ≤ F bs) → |interp f ts| ≤ interp F ts
  | [], f, F, _, h => h [] rfl
  | t :: ts, f, F, ht, h => by
    refine interp_abs_le ts _ _ (fun s hs => ht s (by simp [hs])) ?_
    intro bs hb
    have h0 := abs_le.mp (h (false :: bs) (by simp [hb]))
    have h1 := abs_le.mp (h (true :: bs) (by simp [hb]))
    have ht' := ht t (by simp)
    simp only [lerp, Num.fma]
    rw [abs_le]
    constructor <;> nlinarith

theorem abs_perlin2 (i : Fin 8) (a b : ℝ) : |dot2 (perlin2 i) a b| ≤ |a| + |b| + √2 * max |a| |b| := by
  have r0 := Real.sqrt_nonneg 2
  have ma := mul_le_mul_of_nonneg_left (le_max_left |a| |b|) r0
  have mb := mul_le_mul_of_nonneg_left (le_max_right |a| |b|) r0
  have a1 := mul_le_mul_of_nonneg_left (le_abs_self a) r0
  have a2 := mul_le_mul_of_nonneg_left (neg_abs_le a) r0
  have b1 := mul_le_mul_of_nonneg_left (le_abs_self b) r0
  have b2 := mul_le_mul_of_nonneg_left (neg_abs_le b) r0
  have := le_abs_self a; have := neg_abs_le a; have := le_abs_self b; have := neg_abs_le b
  rw [abs_le]
  fin_cases i <;> simp [dot2, perlin2] <;> constructor <;> linarith

theorem abs_common3 (i : Fin 16) (a b c x : ℝ) (ha : x ≤ |a|) (hb : x ≤ |b|) (hc : x ≤ |c|) :
    |dot3 (common3 i) a b c| ≤ |a| + |b| + |c| - x := by
  have := le_abs_self a; have := neg_abs_le a; have := le_abs_self b; have := neg_abs_le b
  have := le_abs_self c; have := neg_abs_le c
  rw [abs_le]
  fin_cases i <;> simp [dot3, common3] <;> constructor <;> linarith

theorem abs_perlin4 (i : Fin 32) (a b c d x : ℝ) (ha : x ≤ |a|) (hb : x ≤ |b|) (hc : x ≤ |c|) (hd : x ≤ |d|) :
    |dot4 (perlin4 i) a b c d| ≤ |a| + |b| + |c| + |d| - x := by
  have key : ∀ s t r p q o : ℝ, (s = 1 ∨ s = -1) → (t = 1 ∨ t = -1) → (r = 1 ∨ r = -1) → |s * p + t * q + r * o| ≤ |p| + |q| + |o| := by
    intro s t r p q o hs ht hr
    have := le_abs_self p; have := neg_abs_le p; have := le_abs_self q; have := neg_abs_le q
    have := le_abs_self o; have := neg_abs_le o
    rw [abs_le]
    rcases hs with rfl | rfl <;> rcases ht with rfl | rfl <;> rcases hr with rfl | rfl <;> constructor <;> linarith
  have hs : ∀ k, sgn i k = 1 ∨ sgn i k = -1 := by intro k; unfold sgn; split <;> simp
  unfold perlin4 dot4
  have h4 : (i : Nat) / 8 < 4 := by omega
  obtain ⟨j, hj⟩ : ∃ j : Fin 4, (⟨(i : Nat) / 8, h4⟩ : Fin 4) = j := ⟨_, rfl⟩
  simp only [hj]
  fin_cases j
  · have := key _ _ _ b c d (hs 0) (hs 1) (hs 2); simp; linarith
  · have := key _ _ _ a c d (hs 0) (hs 1) (hs 2); simp; linarith
  · have := key _ _ _ a b d (hs 0) (hs 1) (hs 2); simp; linarith
  · have := key _ _ _ a b c (hs 0) (hs 1) (hs 2); simp; linarith

/-- Sum of the two coordinates plus √2 times the larger one. -/
noncomputable def m2 (a b : ℝ) : ℝ := a + b + √2 * max a b
/-- The largest value 2D Perlin noise can take at fractional position (u, v) if every corner has the most favourable gradient. -/
noncomputable def B2 (u v : ℝ) : ℝ :=
  (1 - interpQuintic v) * ((1 - interpQuintic u) * m2 u v + interpQuintic u * m2 (1 - u) v) +
    interpQuintic v * ((1 - interpQuintic u) * m2 u (1 - v) + interpQuintic u * m2 (1 - u) (1 - v))

theorem B2_comm (u v : ℝ) : B2 u v = B2 v u := by
  simp only [B2, m2, max_comm v u, max_comm v (1 - u), max_comm (1 - v) u, max_comm (1 - v) (1 - u)]; ring
theorem B2_symm (u v : ℝ) : B2 (1 - u) v = B2 u v := by
  simp only [B2, quintic_symm, sub_sub_cancel]; ring

theorem sqrt2_half : √2 / 2 ≤ 0.70710678119 := by
  have : √2 ≤ 2 * 0.70710678119 := by rw [Real.sqrt_le_left (by norm_num)]; norm_num
  linarith

theorem B2_sorted {u v : ℝ} (h0 : 0 ≤ u) (huv : u ≤ v) (hv : v ≤ 1 / 2) : B2 u v ≤ 1.726796627044677734375 := by
  have e1 : max u v = v := max_eq_right huv
  have e2 : max (1 - u) v = 1 - u := max_eq_left (by linarith)
  have e3 : max u (1 - v) = 1 - v := max_eq_right (by linarith)
  have e4 : max (1 - u) (1 - v) = 1 - u := max_eq_left (by linarith)
  have hs := quintic_half h0 (by linarith)
  have r0 := Real.sqrt_nonneg 2
  have eB : B2 u v = phi u + phi v + √2 * ((1 - interpQuintic u) * phi v + interpQuintic u * (1 - u)) := by
    simp only [B2, m2, e1, e2, e3, e4, phi]; ring
  have hphi := phi_le_half (t := v) (by linarith) (by linarith)
  have b := bound2 h0 (by linarith) sqrt2_half
  have h1 : √2 * ((1 - interpQuintic u) * phi v) ≤ √2 * ((1 - interpQuintic u) * (1 / 2)) :=
    mul_le_mul_of_nonneg_left (mul_le_mul_of_nonneg_left hphi (by linarith)) r0
  rw [eB, phi_eq u]
  refine le_trans ?_ b
  nlinarith

theorem B2_le {u v : ℝ} (hu0 : 0 ≤ u) (hu1 : u ≤ 1) (hv0 : 0 ≤ v) (hv1 : v ≤ 1) : B2 u v ≤ 1.726796627044677734375 := by
  have key : ∀ u v : ℝ, 0 ≤ u → u ≤ 1 / 2 → 0 ≤ v → v ≤ 1 / 2 → B2 u v ≤ 1.726796627044677734375 := by
    intro u v a b c d
    rcases le_total u v with h | h
    · exact B2_sorted a h d
    · rw [B2_comm]; exact B2_sorted c h b
  have key2 : ∀ u v : ℝ, 0 ≤ u → u ≤ 1 / 2 → 0 ≤ v → v ≤ 1 → B2 u v ≤ 1.726796627044677734375 := by
    intro u v a b c d
    rcases le_total v (1 / 2) with h | h
    · exact key u v a b c h
    · rw [B2_comm, ← B2_symm, B2_comm]; exact key _ _ a b (by linarith) (by linarith)
  rcases le_total u (1 / 2) with h | h
  · exact key2 u v hu0 h hv0 hv1
  · rw [← B2_symm]; exact key2 _ v (by linarith) (by linarith) hv0 hv1

/-- Fractional part. -/
noncomputable abbrev fr (x : ℝ) : ℝ := x - (⌊x⌋ : ℤ)

theorem abs_fr (x : ℝ) : |fr x| = fr x ∧ |fr x - 1| = 1 - fr x := by
  have := fract_range x
  exact ⟨abs_of_nonneg this.1, by rw [abs_of_nonpos (by simp only [fr]; linarith)]; ring⟩

theorem abs_offset (W : ℝ) (b : Bool) : |if b = true then W - (⌊W⌋ : ℤ) - 1 else W - (⌊W⌋ : ℤ)| = if b = true then 1 - fr W else fr W := by
  cases b
  · exact (abs_fr W).1
  · exact (abs_fr W).2

theorem quintic_unit (x : ℝ) : 0 ≤ interpQuintic (fr x) ∧ interpQuintic (fr x) ≤ 1 := quintic_mem (fract_range x).1 (fract_range x).2

theorem perlinRaw2_le (ft : Feat) (seed : I32) (X Y : ℝ) : |perlinRaw ft seed [X, Y]| ≤ 1.726796627044677734375 := by
  refine le_trans ?_ (B2_le (fract_range X).1 (fract_range X).2 (fract_range Y).1 (fract_range Y).2)
  unfold perlinRaw
  refine (interp_abs_le _ _ (fun bs => match bs with
    | [b0, b1] => m2 (if b0 then 1 - fr X else fr X) (if b1 then 1 - fr Y else fr Y)
    | _ => 0) ?_ ?_).trans (le_of_eq ?_)
  · intro t ht
    simp only [List.map_cons, List.map_nil, List.mem_cons, List.not_mem_nil, or_false] at ht
    rcases ht with rfl | rfl <;> exact quintic_unit _
  · intro bs hb
    match bs, hb with
    | [b0, b1], _ =>
      simp only [offset, List.zipWith_cons_cons, List.zipWith_nil_left, gradDot, dotPerlin2_eq]
      refine (abs_perlin2 _ _ _).trans (le_of_eq ?_)
      rw [abs_offset, abs_offset]
      rfl
  · simp only [List.map_cons, List.map_nil, interp, lerp, Num.fma, B2, Bool.false_eq_true, if_false, if_true]
    ring

theorem fold_phi {t x : ℝ} (ht : 0 ≤ t ∧ t ≤ 1) (hx : x = fold t) : phi t - x ≤ 0.071 := by
  subst hx
  unfold fold
  rcases le_total t (1 / 2) with h | h
  · rw [min_eq_left (by linarith), phi_eq]
    have := bound34 ht.1 h
    linarith
  · rw [min_eq_right (by linarith), ← phi_symm, phi_eq]
    have := bound34 (u := 1 - t) (by linarith) (by linarith)
    linarith

theorem le_offset {x t : ℝ} (h : x ≤ fold t) (b : Bool) : x ≤ if b then 1 - t else t := by
  unfold fold at h
  have := le_min_iff.mp h
  cases b <;> simp <;> linarith

theorem perlinRaw3_le (ft : Feat) (seed : I32) (X Y Z : ℝ) : |perlinRaw ft seed [X, Y, Z]| ≤ 1.071 := by
  obtain ⟨x, hx⟩ : ∃ x, x = min (fold (fr X)) (min (fold (fr Y)) (fold (fr Z))) := ⟨_, rfl⟩
  have lX : x ≤ fold (fr X) := by rw [hx]; exact min_le_left _ _
  have lY : x ≤ fold (fr Y) := by rw [hx]; exact (min_le_right _ _).trans (min_le_left _ _)
  have lZ : x ≤ fold (fr Z) := by rw [hx]; exact (min_le_right _ _).trans (min_le_right _ _)
  have main : |perlinRaw ft seed [X, Y, Z]| ≤ phi (fr X) + phi (fr Y) + phi (fr Z) - x := by
    unfold perlinRaw
    refine (interp_abs_le _ _ (fun bs => match bs with
      | [b0, b1, b2] => (if b0 then 1 - fr X else fr X) + (if b1 then 1 - fr Y else fr Y) + (if b2 then 1 - fr Z else fr Z) - x
      | _ => 0) ?_ ?_).trans (le_of_eq ?_)
    · intro t ht
      simp only [List.map_cons, List.map_nil, List.mem_cons, List.not_mem_nil, or_false] at ht
      rcases ht with rfl | rfl | rfl <;> exact quintic_unit _
    · intro bs hb
      match bs, hb with
      | [b0, b1, b2], _ =>
        simp only [offset, List.zipWith_cons_cons, List.zipWith_nil_left, gradDot, dotCommon_eq]
        refine (abs_common3 _ _ _ _ x (by rw [abs_offset]; exact le_offset lX b0) (by rw [abs_offset]; exact le_offset lY b1) (by rw [abs_offset]; exact le_offset lZ b2)).trans (le_of_eq ?_)
        rw [abs_offset, abs_offset, abs_offset]
    · simp only [List.map_cons, List.map_nil, interp, lerp, Num.fma, phi, Bool.false_eq_true, if_false, if_true]
      ring
  have pX := phi_le_half (fract_range X).1 (fract_range X).2
  have pY := phi_le_half (fract_range Y).1 (fract_range Y).2
  have pZ := phi_le_half (fract_range Z).1 (fract_range Z).2
  refine main.trans ?_
  have : x = fold (fr X) ∨ x = fold (fr Y) ∨ x = fold (fr Z) := by
    rw [hx]; rcases min_choice (fold (fr X)) (min (fold (fr Y)) (fold (fr Z))) with h | h
    · exact Or.inl h
    · rw [h]; exact Or.inr (min_choice _ _)
  rcases this with h | h | h
  · have := fold_phi (fract_range X) h; linarith
  · have := fold_phi (fract_range Y) h; linarith
  · have := fold_phi (fract_range Z) h; linarith

theorem perlinRaw4_le (ft : Feat) (seed : I32) (X Y Z W : ℝ) : |perlinRaw ft seed [X, Y, Z, W]| ≤ 1.571 := by
  obtain ⟨x, hx⟩ : ∃ x, x = min (min (fold (fr X)) (fold (fr W))) (min (fold (fr Y)) (fold (fr Z))) := ⟨_, rfl⟩
  have lX : x ≤ fold (fr X) := by rw [hx]; exact (min_le_left _ _).trans (min_le_left _ _)
  have lW : x ≤ fold (fr W) := by rw [hx]; exact (min_le_left _ _).trans (min_le_right _ _)
  have lY : x ≤ fold (fr Y) := by rw [hx]; exact (min_le_right _ _).trans (min_le_left _ _)
  have lZ : x ≤ fold (fr Z) := by rw [hx]; exact (min_le_right _ _).trans (min_le_right _ _)
  have main : |perlinRaw ft seed [X, Y, Z, W]| ≤ phi (fr X) + phi (fr Y) + phi (fr Z) + phi (fr W) - x := by
    unfold perlinRaw
    refine (interp_abs_le _ _ (fun bs => match bs with
      | [b0, b1, b2, b3] => (if b0 then 1 - fr X else fr X) + (if b1 then 1 - fr Y else fr Y) + (if b2 then 1 - fr Z else fr Z) + (if b3 then 1 - fr W else fr W) - x
      | _ => 0) ?_ ?_).trans (le_of_eq ?_)
    · intro t ht
      simp only [List.map_cons, List.map_nil, List.mem_cons, List.not_mem_nil, or_false] at ht
      rcases ht with rfl | rfl | rfl | rfl <;> exact quintic_unit _
    · intro bs hb
      match bs, hb with
      | [b0, b1, b2, b3], _ =>
        simp only [offset, List.zipWith_cons_cons, List.zipWith_nil_left, gradDot, dotPerlin4_eq]
        refine (abs_perlin4 _ _ _ _ _ x (by rw [abs_offset]; exact le_offset lX b0) (by rw [abs_offset]; exact le_offset lY b1) (by rw [abs_offset]; exact le_offset lZ b2)
          (by rw [abs_offset]; exact le_offset lW b3)).trans (le_of_eq ?_)
        rw [abs_offset, abs_offset, abs_offset, abs_offset]
    · simp only [List.map_cons, List.map_nil, interp, lerp, Num.fma, phi, Bool.false_eq_true, if_false, if_true]
      ring
  have pX := phi_le_half (fract_range X).1 (fract_range X).2
  have pY := phi_le_half (fract_range Y).1 (fract_range Y).2
  have pZ := phi_le_half (fract_range Z).1 (fract_range Z).2
  have pW := phi_le_half (fract_range W).1 (fract_range W).2
  refine main.trans ?_
  have : (x = fold (fr X) ∨ x = fold (fr W)) ∨ x = fold (fr Y) ∨ x = fold (fr Z) := by
    rw [hx]; rcases min_choice (min (fold (fr X)) (fold (fr W))) (min (fold (fr Y)) (fold (fr Z))) with h | h
    · rw [h]; exact Or.inl (min_choice _ _)
    · rw [h]; exact Or.inr (min_choice _ _)
  rcases this with (h | h) | h | h
  · have := fold_phi (fract_range X) h; linarith
  · have := fold_phi (fract_range W) h; linarith
  · have := fold_phi (fract_range Y) h; linarith
  · have := fold_phi (fract_range Z) h; linarith

end FastNoise.Lattice
