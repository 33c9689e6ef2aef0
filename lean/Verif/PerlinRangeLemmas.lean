import Verif.LatticeLemmas
import Verif.PolyCheck
/-!
Bounds of 3D and 4D Perlin noise before the mapping to the output range (lemmas for C36).  The contribution of a corner is at most the sum of the distances to its planes less the smallest; the
weighted mean of that is bounded for sorted distances, and the remaining polynomial inequalities in one variable are checked with `PolyCheck`.
-/
namespace FastNoise.Lattice
open FastNoise.Hash FastNoise.Num FastNoise.Basic FastNoise.Gradient
open FastNoise.PolyCheck (eval check_sound)

noncomputable section

/-- Mean of `f` over the two lattice planes of one axis. -/
def mix (t : ℝ) (f : ℝ → ℝ) : ℝ := (1 - interpQuintic t) * f t + interpQuintic t * f (1 - t)

theorem mix_symm (t : ℝ) (f : ℝ → ℝ) : mix (1 - t) f = mix t f := by
  simp only [mix, quintic_symm, sub_sub_cancel]; ring

theorem mix_ge {t A B : ℝ} (ht : 0 ≤ t ∧ t ≤ 1) {f : ℝ → ℝ} (hA : A ≤ f t) (hB : B ≤ f (1 - t)) : (1 - interpQuintic t) * A + interpQuintic t * B ≤ mix t f := by
  have := quintic_mem ht.1 ht.2
  exact add_le_add (mul_le_mul_of_nonneg_left hA (by linarith)) (mul_le_mul_of_nonneg_left hB this.1)

theorem mix_const {t A : ℝ} (ht : 0 ≤ t ∧ t ≤ 1) {f : ℝ → ℝ} (hA : A ≤ f t) (hB : A ≤ f (1 - t)) : A ≤ mix t f := by
  have := mix_ge ht hA hB
  linarith

/-- Mean of the smallest distance, and the bound it leaves, in 3D. -/
def E3 (x y z : ℝ) : ℝ := mix x fun a => mix y fun b => mix z fun c => min a (min b c)
def S3 (x y z : ℝ) : ℝ := phi x + phi y + phi z - E3 x y z

def E4 (x y z w : ℝ) : ℝ := mix x fun a => mix y fun b => mix z fun c => mix w fun d => min a (min b (min c d))
def S4 (x y z w : ℝ) : ℝ := phi x + phi y + phi z + phi w - E4 x y z w

theorem mix_swap (s t : ℝ) (f : ℝ → ℝ → ℝ) : (mix s fun a => mix t fun b => f a b) = mix t fun b => mix s fun a => f a b := by
  simp only [mix]; ring

/-- `P(s) = 15/8 - 5 s^2 + 6 s^4`: `interpQuintic (1/2 - s) = 1/2 - s P(s)`. -/
def Pq (s : ℝ) : ℝ := 15 / 8 - 5 * s ^ 2 + 6 * s ^ 4

theorem quintic_Pq (s : ℝ) : interpQuintic (1 / 2 - s) = 1 / 2 - s * Pq s := by
  simp only [interpQuintic, Num.fma, Pq]; ring

theorem half_abs {x lo hi : ℝ} (h0 : lo ≤ x) (h1 : x ≤ hi) : |x - (lo + hi) / 2| ≤ (hi - lo) / 2 := by
  rw [abs_le]; constructor <;> linarith

/-- The gain from the second axis on. -/
theorem gain_le {a s s0 k v : ℝ} (ha : 0 ≤ a) (h2 : a ≤ 1 / 2) (hs : 0 ≤ s) (hs2 : s ≤ 1 / 2) (k0 : 0 < k)
    (hlow : s ≤ s0 → k ≤ Pq s) (hhigh : s0 ≤ s → v ≤ s * Pq s) (hv : a / 2 ≤ (2 - a) * v) :
    a * s / 2 - (2 - a) * (s ^ 2 * Pq s) ≤ a ^ 2 / (16 * k * (2 - a)) := by
  have hc : 0 < 2 - a := by linarith
  have hc2 : 0 < 16 * k * (2 - a) := by positivity
  rcases le_total s s0 with h | h
  · have hk := hlow h
    have h1 : (2 - a) * (s ^ 2 * k) ≤ (2 - a) * (s ^ 2 * Pq s) := by
      apply mul_le_mul_of_nonneg_left _ hc.le
      exact mul_le_mul_of_nonneg_left hk (sq_nonneg s)
    have h3 : a * s / 2 - (2 - a) * (s ^ 2 * k) ≤ a ^ 2 / (16 * k * (2 - a)) := by
      rw [le_div_iff₀ hc2]
      nlinarith [sq_nonneg (a - 4 * ((2 - a) * k) * s)]
    linarith
  · have hk := hhigh h
    have h1 : a * s / 2 - (2 - a) * (s ^ 2 * Pq s) ≤ 0 := by
      have : (2 - a) * v * s ≤ (2 - a) * (s * Pq s) * s := mul_le_mul_of_nonneg_right (mul_le_mul_of_nonneg_left hk hc.le) hs
      nlinarith [mul_le_mul_of_nonneg_right hv hs]
    have : 0 ≤ a ^ 2 / (16 * k * (2 - a)) := by positivity
    linarith

theorem Pq_ge {s s0 k : ℝ} (hs : 0 ≤ s) (h : s ≤ s0) (hs0 : s0 ≤ 1 / 2) (hk : k ≤ Pq s0) : k ≤ Pq s := by
  refine hk.trans ?_
  unfold Pq
  have h2 : s ^ 2 ≤ s0 ^ 2 := by nlinarith
  have h3 : s0 ^ 2 ≤ 1 / 4 := by nlinarith
  nlinarith [mul_nonneg (sub_nonneg.mpr h2) (show 0 ≤ 5 - 6 * (s ^ 2 + s0 ^ 2) by nlinarith)]

/-- Where the first axis has weight at most 0.27. -/
theorem gain_small {a s : ℝ} (ha : 0 ≤ a) (h2 : a ≤ 0.27) (hs : 0 ≤ s) (hs2 : s ≤ 1 / 2) :
    a * s / 2 - (2 - a) * (s ^ 2 * Pq s) ≤ a ^ 2 / (16 * 1.8662 * (2 - a)) := by
  refine gain_le (s0 := 0.0419) (v := 0.0781) ha (by linarith) hs hs2 (by norm_num) (fun h => Pq_ge hs h (by norm_num) (by norm_num [Pq])) (fun h => ?_) (by nlinarith)
  have := check_sound [-0.0781, 15 / 8, 0, -5, 0, 6] 12 ((0.0419 + 1 / 2) / 2) ((1 / 2 - 0.0419) / 2) (by decide +kernel) (x := s)
    (by have := half_abs h hs2; norm_num at this ⊢; exact this)
  simp only [eval] at this
  norm_num at this
  unfold Pq
  linarith

theorem gain_large {a s : ℝ} (ha : 0 ≤ a) (h2 : a ≤ 1 / 2) (hs : 0 ≤ s) (hs2 : s ≤ 1 / 2) :
    a * s / 2 - (2 - a) * (s ^ 2 * Pq s) ≤ a ^ 2 / (16 * 1.833 * (2 - a)) := by
  refine gain_le (s0 := 0.0915) (v := 0.1677) ha (by linarith) hs hs2 (by norm_num) (fun h => Pq_ge hs h (by norm_num) (by norm_num [Pq])) (fun h => ?_) (by nlinarith)
  have := check_sound [-0.1677, 15 / 8, 0, -5, 0, 6] 12 ((0.0915 + 1 / 2) / 2) ((1 / 2 - 0.0915) / 2) (by decide +kernel) (x := s)
    (by have := half_abs h hs2; norm_num at this ⊢; exact this)
  simp only [eval] at this
  norm_num at this
  unfold Pq
  linarith

/-- The weight of the far plane. -/
def wt (u : ℝ) : ℝ := 1 / 2 - u * Pq u

theorem wt_le {u : ℝ} (h0 : 0.1285 ≤ u) (h1 : u ≤ 1 / 2) : wt u ≤ 0.27 := by
  have := check_sound [0.27 - 1 / 2, 15 / 8, 0, -5, 0, 6] 12 ((0.1285 + 1 / 2) / 2) ((1 / 2 - 0.1285) / 2) (by decide +kernel) (x := u)
    (by have := half_abs h0 h1; norm_num at this ⊢; exact this)
  simp only [eval] at this
  norm_num at this
  unfold wt Pq
  linarith

theorem wt_mem {u : ℝ} (h0 : 0 ≤ u) (h1 : u ≤ 1 / 2) : 0 ≤ wt u ∧ wt u ≤ 1 / 2 := by
  have := quintic_half (t := 1 / 2 - u) (by linarith) (by linarith)
  rwa [quintic_Pq] at this

theorem main_small {u : ℝ} (h0 : 0 ≤ u) (h1 : u ≤ 1 / 2) : wt u * u + wt u ^ 2 / (16 * 1.8662 * (2 - wt u)) ≤ 0.03636 := by
  obtain ⟨w0, w1⟩ := wt_mem h0 h1
  have hc : 0 < 16 * 1.8662 * (2 - wt u) := by nlinarith
  have := check_sound [21539387/15625000, -231046863/12500000, 419763/8000, 1181816843/12500000, -65273/500, -1069034994/1953125, 164569/1250, 177289/125, 60, -223944/125, -36, 671832/625]
    16 (1 / 4) (1 / 4) (by decide +kernel) (x := u) (by have := half_abs h0 h1; norm_num at this ⊢; exact this)
  simp only [eval] at this
  norm_num at this
  have : wt u ^ 2 / (16 * 1.8662 * (2 - wt u)) ≤ 0.03636 - wt u * u := by
    rw [div_le_iff₀ hc]
    unfold wt Pq
    nlinarith
  linarith

theorem main_large {u : ℝ} (h0 : 0 ≤ u) (h1 : u ≤ 0.1285) : wt u * u + wt u ^ 2 / (16 * 1.833 * (2 - wt u)) ≤ 0.03636 := by
  obtain ⟨w0, w1⟩ := wt_mem h0 (by linarith)
  have hc : 0 < 16 * 1.833 * (2 - wt u) := by nlinarith
  have := check_sound [4217341/3125000, -45303909/2500000, 82359/1600, 231936049/2500000, -12789/100, -209961642/390625, 32117/250, 34827/25, 60, -43992/25, -36, 131976/125]
    16 (0.1285 / 2) (0.1285 / 2) (by decide +kernel) (x := u) (by have := half_abs h0 h1; norm_num at this ⊢; exact this)
  simp only [eval] at this
  norm_num at this
  have : wt u ^ 2 / (16 * 1.833 * (2 - wt u)) ≤ 0.03636 - wt u * u := by
    rw [div_le_iff₀ hc]
    unfold wt Pq
    nlinarith
  linarith

theorem main4_small {u : ℝ} (h0 : 0 ≤ u) (h1 : u ≤ 1 / 2) : wt u * u + wt u ^ 2 / (16 * 1.8662 * (2 - wt u)) + wt u ^ 2 / 209 ≤ 0.03666 := by
  obtain ⟨w0, w1⟩ := wt_mem h0 h1
  have hc : 0 < 16 * 1.8662 * (2 - wt u) := by nlinarith
  have := check_sound [8741309321/6531250000, -94740268179/5225000000, 21827643/418000, 1936717097451/20900000000, -3375523/26125, -7036594584807/13062500000, 881802/6875, 580677461/418000,
      1679472/26125, -45078061/26125, -5038416/130625, 128235933/130625, 0, 2015496/26125, 0, -4030992/130625]
    16 (1 / 4) (1 / 4) (by decide +kernel) (x := u) (by have := half_abs h0 h1; norm_num at this ⊢; exact this)
  simp only [eval] at this
  norm_num at this
  have : wt u ^ 2 / (16 * 1.8662 * (2 - wt u)) ≤ 0.03666 - wt u * u - wt u ^ 2 / 209 := by
    rw [div_le_iff₀ hc]
    unfold wt Pq
    nlinarith
  linarith

theorem main4_large {u : ℝ} (h0 : 0 ≤ u) (h1 : u ≤ 0.1285) : wt u * u + wt u ^ 2 / (16 * 1.833 * (2 - wt u)) + wt u ^ 2 / 209 ≤ 0.03666 := by
  obtain ⟨w0, w1⟩ := wt_mem h0 (by linarith)
  have hc : 0 < 16 * 1.833 * (2 - wt u) := by nlinarith
  have := check_sound [1711350403/1306250000, -18576107097/1045000000, 8565273/167200, 380080702993/4180000000, -1322703/10450, -1382003624901/2612500000, 172061/1375, 114069423/83600,
      335496/5225, -8855223/5225, -1006488/26125, 25190919/26125, 0, 395928/5225, 0, -791856/26125]
    16 (0.1285 / 2) (0.1285 / 2) (by decide +kernel) (x := u) (by have := half_abs h0 h1; norm_num at this ⊢; exact this)
  simp only [eval] at this
  norm_num at this
  have : wt u ^ 2 / (16 * 1.833 * (2 - wt u)) ≤ 0.03666 - wt u * u - wt u ^ 2 / 209 := by
    rw [div_le_iff₀ hc]
    unfold wt Pq
    nlinarith
  linarith

/-- The two-variable inequality for 3D. -/
theorem core3 {u s : ℝ} (hu : 0 ≤ u) (hu2 : u ≤ 1 / 2) (hs : 0 ≤ s) (hs2 : s ≤ 1 / 2) :
    wt u * u + (wt u * s / 2 - (2 - wt u) * (s ^ 2 * Pq s)) ≤ 0.03636 := by
  obtain ⟨w0, w1⟩ := wt_mem hu hu2
  rcases le_total u 0.1285 with h | h
  · have := main_large hu h
    have := gain_large w0 w1 hs hs2
    linarith
  · have := main_small hu hu2
    have := gain_small w0 (wt_le h hu2) hs hs2
    linarith

theorem core4 {u s r b : ℝ} (hu : 0 ≤ u) (hu2 : u ≤ 1 / 2) (hs : 0 ≤ s) (hs2 : s ≤ 1 / 2) (hr : 0 ≤ r) (hr2 : r ≤ 1 / 2) (hb2 : b ≤ 1 / 2) :
    wt u * u + (wt u * s / 2 - (2 - wt u) * (s ^ 2 * Pq s)) + (wt u * b * r / 2 - (2 - wt u * b) * (r ^ 2 * Pq r)) ≤ 0.03666 := by
  obtain ⟨w0, w1⟩ := wt_mem hu hu2
  obtain ⟨r0, r1⟩ := wt_mem hr hr2
  have hP : 0 ≤ Pq r := by
    unfold Pq
    have : r ^ 2 ≤ 1 / 4 := by nlinarith
    nlinarith [sq_nonneg (r ^ 2)]
  have hab : wt u * b ≤ wt u / 2 := by nlinarith
  have hmono : wt u * b * r / 2 - (2 - wt u * b) * (r ^ 2 * Pq r) ≤ wt u / 2 * r / 2 - (2 - wt u / 2) * (r ^ 2 * Pq r) := by
    have := mul_le_mul_of_nonneg_right hab hr
    have := mul_le_mul_of_nonneg_right hab (mul_nonneg (sq_nonneg r) hP)
    linarith
  have g := gain_small (a := wt u / 2) (by linarith) (by linarith) hr hr2
  have g2 : (wt u / 2) ^ 2 / (16 * 1.8662 * (2 - wt u / 2)) ≤ wt u ^ 2 / 209 := by
    rw [div_le_div_iff₀ (by nlinarith) (by norm_num)]
    nlinarith [sq_nonneg (wt u)]
  rcases le_total u 0.1285 with h | h
  · have := main4_large hu h
    have := gain_large w0 w1 hs hs2
    linarith
  · have := main4_small hu hu2
    have := gain_small w0 (wt_le h hu2) hs hs2
    linarith

theorem S3_sorted {x y z : ℝ} (h0 : 0 ≤ x) (hxy : x ≤ y) (hyz : y ≤ z) (hz : z ≤ 1 / 2) : S3 x y z ≤ 1.03636 := by
  have hx1 : 0 ≤ x ∧ x ≤ 1 := ⟨h0, by linarith⟩
  have hy1 : 0 ≤ y ∧ y ≤ 1 := ⟨by linarith, by linarith⟩
  have hz1 : 0 ≤ z ∧ z ≤ 1 := ⟨by linarith, by linarith⟩
  have e : (1 - interpQuintic x) * x + interpQuintic x * ((1 - interpQuintic y) * y + interpQuintic y * phi z) ≤ E3 x y z := by
    refine mix_ge hx1 (mix_const hy1 (mix_const hz1 ?_ ?_) (mix_const hz1 ?_ ?_)) (mix_ge hy1 (mix_const hz1 ?_ ?_) (mix_ge hz1 ?_ ?_)) <;>
      refine le_min ?_ (le_min ?_ ?_) <;> linarith
  have q1 := quintic_mem hx1.1 hx1.2
  have q2 := quintic_mem hy1.1 hy1.2
  have q12 : interpQuintic x * interpQuintic y ≤ 1 := mul_le_one₀ q1.2 q2.1 q2.2
  have pz := phi_le_half hz1.1 hz1.2
  have hz' : (1 - interpQuintic x * interpQuintic y) * phi z ≤ (1 - interpQuintic x * interpQuintic y) * (1 / 2) := mul_le_mul_of_nonneg_left pz (by linarith)
  have c := core3 (u := 1 / 2 - x) (s := 1 / 2 - y) (by linarith) (by linarith) (by linarith) (by linarith)
  have ex : interpQuintic x = wt (1 / 2 - x) := by have := quintic_Pq (1 / 2 - x); rwa [sub_sub_cancel] at this
  have ey : interpQuintic y = 1 / 2 - (1 / 2 - y) * Pq (1 / 2 - y) := by have := quintic_Pq (1 / 2 - y); rwa [sub_sub_cancel] at this
  unfold S3
  rw [phi_eq x, phi_eq y]
  rw [← ex] at c
  generalize interpQuintic x = a at *
  rw [ey] at e hz' ⊢
  generalize Pq (1 / 2 - y) = p at *
  nlinarith

theorem S4_sorted {x y z w : ℝ} (h0 : 0 ≤ x) (hxy : x ≤ y) (hyz : y ≤ z) (hzw : z ≤ w) (hw : w ≤ 1 / 2) : S4 x y z w ≤ 1.53666 := by
  have hx1 : 0 ≤ x ∧ x ≤ 1 := ⟨h0, by linarith⟩
  have hy1 : 0 ≤ y ∧ y ≤ 1 := ⟨by linarith, by linarith⟩
  have hz1 : 0 ≤ z ∧ z ≤ 1 := ⟨by linarith, by linarith⟩
  have hw1 : 0 ≤ w ∧ w ≤ 1 := ⟨by linarith, by linarith⟩
  have e : (1 - interpQuintic x) * x + interpQuintic x * ((1 - interpQuintic y) * y + interpQuintic y * ((1 - interpQuintic z) * z + interpQuintic z * phi w)) ≤ E4 x y z w := by
    refine mix_ge hx1 (mix_const hy1 (mix_const hz1 (mix_const hw1 ?_ ?_) (mix_const hw1 ?_ ?_)) (mix_const hz1 (mix_const hw1 ?_ ?_) (mix_const hw1 ?_ ?_)))
      (mix_ge hy1 (mix_const hz1 (mix_const hw1 ?_ ?_) (mix_const hw1 ?_ ?_)) (mix_ge hz1 (mix_const hw1 ?_ ?_) (mix_ge hw1 ?_ ?_))) <;>
      refine le_min ?_ (le_min ?_ (le_min ?_ ?_)) <;> linarith
  have q1 := quintic_mem hx1.1 hx1.2
  have q2 := quintic_half hy1.1 (by linarith)
  have q3 := quintic_mem hz1.1 hz1.2
  have q12 : interpQuintic x * interpQuintic y ≤ 1 := mul_le_one₀ q1.2 q2.1 (by linarith)
  have q123 : interpQuintic x * interpQuintic y * interpQuintic z ≤ 1 := mul_le_one₀ q12 q3.1 q3.2
  have pw := phi_le_half hw1.1 hw1.2
  have hw' : (1 - interpQuintic x * interpQuintic y * interpQuintic z) * phi w ≤ (1 - interpQuintic x * interpQuintic y * interpQuintic z) * (1 / 2) :=
    mul_le_mul_of_nonneg_left pw (by linarith)
  have c := core4 (u := 1 / 2 - x) (s := 1 / 2 - y) (r := 1 / 2 - z) (b := interpQuintic y) (by linarith) (by linarith) (by linarith) (by linarith) (by linarith) (by linarith) q2.2
  have ex : interpQuintic x = wt (1 / 2 - x) := by have := quintic_Pq (1 / 2 - x); rwa [sub_sub_cancel] at this
  have ey : interpQuintic y = 1 / 2 - (1 / 2 - y) * Pq (1 / 2 - y) := by have := quintic_Pq (1 / 2 - y); rwa [sub_sub_cancel] at this
  have ez : interpQuintic z = 1 / 2 - (1 / 2 - z) * Pq (1 / 2 - z) := by have := quintic_Pq (1 / 2 - z); rwa [sub_sub_cancel] at this
  unfold S4
  rw [phi_eq x, phi_eq y, phi_eq z]
  rw [← ex] at c
  rw [ez] at e hw' ⊢
  rw [ey] at e hw' c ⊢
  have key : interpQuintic x * (1 - x) + 1 / 2 - interpQuintic x / 2 = 1 / 2 + interpQuintic x * (1 / 2 - x) := by ring
  generalize interpQuintic x = a at *
  generalize Pq (1 / 2 - y) = p at *
  generalize Pq (1 / 2 - z) = r at *
  nlinarith

/-- It suffices to look at sorted arguments. -/
theorem sort3 {P : ℝ → ℝ → ℝ → Prop} (s12 : ∀ a b c, P a b c → P b a c) (s23 : ∀ a b c, P a b c → P a c b)
    (h : ∀ a b c, a ≤ b → b ≤ c → P a b c) (a b c : ℝ) : P a b c := by
  have h2 : ∀ a b c, b ≤ c → P a b c := by
    intro a b c hbc
    rcases le_total a b with h1 | h1
    · exact h _ _ _ h1 hbc
    · refine s12 _ _ _ ?_
      rcases le_total a c with h2 | h2
      · exact h _ _ _ h1 h2
      · exact s23 _ _ _ (h _ _ _ hbc h2)
  rcases le_total b c with h1 | h1
  · exact h2 _ _ _ h1
  · exact s23 _ _ _ (h2 _ _ _ h1)

theorem sort4 {P : ℝ → ℝ → ℝ → ℝ → Prop} (s12 : ∀ a b c d, P a b c d → P b a c d) (s23 : ∀ a b c d, P a b c d → P a c b d) (s34 : ∀ a b c d, P a b c d → P a b d c)
    (h : ∀ a b c d, a ≤ b → b ≤ c → c ≤ d → P a b c d) (a b c d : ℝ) : P a b c d := by
  have h2 : ∀ a b c d, b ≤ c → c ≤ d → P a b c d := by
    intro a b c d hbc hcd
    rcases le_total a b with h1 | h1
    · exact h _ _ _ _ h1 hbc hcd
    · refine s12 _ _ _ _ ?_
      rcases le_total a c with h2 | h2
      · exact h _ _ _ _ h1 h2 hcd
      · refine s23 _ _ _ _ ?_
        rcases le_total a d with h3 | h3
        · exact h _ _ _ _ hbc h2 h3
        · exact s34 _ _ _ _ (h _ _ _ _ hbc hcd h3)
  exact sort3 (P := fun b c d => P a b c d) (fun x y z => s23 a x y z) (fun x y z => s34 a x y z) (fun x y z => h2 a x y z) b c d

theorem S3_le {x y z : ℝ} (hx : 0 ≤ x ∧ x ≤ 1) (hy : 0 ≤ y ∧ y ≤ 1) (hz : 0 ≤ z ∧ z ≤ 1) : S3 x y z ≤ 1.03636 := by
  have half : ∀ x y z, (0 ≤ x ∧ x ≤ 1 / 2) → (0 ≤ y ∧ y ≤ 1 / 2) → (0 ≤ z ∧ z ≤ 1 / 2) → S3 x y z ≤ 1.03636 := by
    refine sort3 ?_ ?_ ?_
    · intro a b c h hx hy hz
      have := h hy hx hz
      have e : S3 b a c = S3 a b c := by
        unfold S3 E3; rw [mix_swap]
        simp only [min_left_comm]; ring
      rw [e]; exact this
    · intro a b c h hx hy hz
      have := h hx hz hy
      have e : S3 a c b = S3 a b c := by
        unfold S3 E3
        have : ∀ p : ℝ, (mix c fun q => mix b fun r => min p (min q r)) = mix b fun q => mix c fun r => min p (min q r) := by
          intro p; rw [mix_swap]; simp only [min_comm]
        simp only [this]; ring
      rw [e]; exact this
    · intro a b c h1 h2 hx hy hz
      exact S3_sorted hx.1 h1 h2 hz.2
  have fl : ∀ t : ℝ, 0 ≤ t ∧ t ≤ 1 → ∃ s, (s = t ∨ s = 1 - t) ∧ 0 ≤ s ∧ s ≤ 1 / 2 := by
    intro t ht
    rcases le_total t (1 / 2) with h | h
    · exact ⟨t, .inl rfl, ht.1, h⟩
    · exact ⟨1 - t, .inr rfl, by linarith, by linarith⟩
  obtain ⟨a, ea, ha⟩ := fl x hx
  obtain ⟨b, eb, hb⟩ := fl y hy
  obtain ⟨c, ec, hc⟩ := fl z hz
  have mx : ∀ {s t : ℝ}, (s = t ∨ s = 1 - t) → (∀ f, mix t f = mix s f) ∧ phi t = phi s := by
    intro s t h
    rcases h with rfl | rfl
    · exact ⟨fun _ => rfl, rfl⟩
    · exact ⟨fun f => (mix_symm t f).symm, (phi_symm t).symm⟩
  have e : S3 x y z = S3 a b c := by
    unfold S3 E3
    simp only [(mx ea).1, (mx eb).1, (mx ec).1, (mx ea).2, (mx eb).2, (mx ec).2]
  rw [e]
  exact half a b c ha hb hc

theorem S4_le {x y z w : ℝ} (hx : 0 ≤ x ∧ x ≤ 1) (hy : 0 ≤ y ∧ y ≤ 1) (hz : 0 ≤ z ∧ z ≤ 1) (hw : 0 ≤ w ∧ w ≤ 1) : S4 x y z w ≤ 1.53666 := by
  have half : ∀ x y z w, (0 ≤ x ∧ x ≤ 1 / 2) → (0 ≤ y ∧ y ≤ 1 / 2) → (0 ≤ z ∧ z ≤ 1 / 2) → (0 ≤ w ∧ w ≤ 1 / 2) → S4 x y z w ≤ 1.53666 := by
    refine sort4 ?_ ?_ ?_ ?_
    · intro a b c d h hx hy hz hw
      have := h hy hx hz hw
      have e : S4 b a c d = S4 a b c d := by
        unfold S4 E4; rw [mix_swap]
        simp only [min_left_comm]; ring
      rw [e]; exact this
    · intro a b c d h hx hy hz hw
      have := h hx hz hy hw
      have e : S4 a c b d = S4 a b c d := by
        unfold S4 E4
        have : ∀ p : ℝ, (mix c fun q => mix b fun r => mix d fun s => min p (min q (min r s))) = mix b fun q => mix c fun r => mix d fun s => min p (min q (min r s)) := by
          intro p; rw [mix_swap]; simp only [min_left_comm]
        simp only [this]; ring
      rw [e]; exact this
    · intro a b c d h hx hy hz hw
      have := h hx hy hw hz
      have e : S4 a b d c = S4 a b c d := by
        unfold S4 E4
        have : ∀ p q : ℝ, (mix d fun r => mix c fun s => min p (min q (min r s))) = mix c fun r => mix d fun s => min p (min q (min r s)) := by
          intro p q; rw [mix_swap]; simp only [min_comm]
        simp only [this]; ring
      rw [e]; exact this
    · intro a b c d h1 h2 h3 hx hy hz hw
      exact S4_sorted hx.1 h1 h2 h3 hw.2
  have fl : ∀ t : ℝ, 0 ≤ t ∧ t ≤ 1 → ∃ s, (s = t ∨ s = 1 - t) ∧ 0 ≤ s ∧ s ≤ 1 / 2 := by
    intro t ht
    rcases le_total t (1 / 2) with h | h
    · exact ⟨t, .inl rfl, ht.1, h⟩
    · exact ⟨1 - t, .inr rfl, by linarith, by linarith⟩
  obtain ⟨a, ea, ha⟩ := fl x hx
  obtain ⟨b, eb, hb⟩ := fl y hy
  obtain ⟨c, ec, hc⟩ := fl z hz
  obtain ⟨d, ed, hd⟩ := fl w hw
  have mx : ∀ {s t : ℝ}, (s = t ∨ s = 1 - t) → (∀ f, mix t f = mix s f) ∧ phi t = phi s := by
    intro s t h
    rcases h with rfl | rfl
    · exact ⟨fun _ => rfl, rfl⟩
    · exact ⟨fun f => (mix_symm t f).symm, (phi_symm t).symm⟩
  have e : S4 x y z w = S4 a b c d := by
    unfold S4 E4
    simp only [(mx ea).1, (mx eb).1, (mx ec).1, (mx ed).1, (mx ea).2, (mx eb).2, (mx ec).2, (mx ed).2]
  rw [e]
  exact half a b c d ha hb hc hd

theorem perlinRaw3_tight (ft : Feat) (seed : I32) (X Y Z : ℝ) : |perlinRaw ft seed [X, Y, Z]| ≤ 1.03636 := by
  refine le_trans ?_ (S3_le (fract_range X) (fract_range Y) (fract_range Z))
  unfold perlinRaw
  refine (interp_abs_le _ _ (fun bs => match bs with
    | [b0, b1, b2] => (if b0 then 1 - fr X else fr X) + (if b1 then 1 - fr Y else fr Y) + (if b2 then 1 - fr Z else fr Z)
        - min (if b0 then 1 - fr X else fr X) (min (if b1 then 1 - fr Y else fr Y) (if b2 then 1 - fr Z else fr Z))
    | _ => 0) ?_ ?_).trans (le_of_eq ?_)
  · intro t ht
    simp only [List.map_cons, List.map_nil, List.mem_cons, List.not_mem_nil, or_false] at ht
    rcases ht with rfl | rfl | rfl <;> exact quintic_unit _
  · intro bs hb
    match bs, hb with
    | [b0, b1, b2], _ =>
      simp only [offset, List.zipWith_cons_cons, List.zipWith_nil_left, gradDot, dotCommon_eq]
      refine (abs_common3 _ _ _ _ (min (if b0 then 1 - fr X else fr X) (min (if b1 then 1 - fr Y else fr Y) (if b2 then 1 - fr Z else fr Z)))
        ?_ ?_ ?_).trans (le_of_eq ?_) <;> simp only [abs_offset]
      · exact min_le_left _ _
      · exact (min_le_right _ _).trans (min_le_left _ _)
      · exact (min_le_right _ _).trans (min_le_right _ _)
  · simp only [List.map_cons, List.map_nil, interp, lerp, Num.fma, S3, E3, mix, phi, Bool.false_eq_true, if_false, if_true]
    ring

theorem perlinRaw4_tight (ft : Feat) (seed : I32) (X Y Z W : ℝ) : |perlinRaw ft seed [X, Y, Z, W]| ≤ 1.53666 := by
  refine le_trans ?_ (S4_le (fract_range X) (fract_range Y) (fract_range Z) (fract_range W))
  unfold perlinRaw
  refine (interp_abs_le _ _ (fun bs => match bs with
    | [b0, b1, b2, b3] => (if b0 then 1 - fr X else fr X) + (if b1 then 1 - fr Y else fr Y) + (if b2 then 1 - fr Z else fr Z) + (if b3 then 1 - fr W else fr W)
        - min (if b0 then 1 - fr X else fr X) (min (if b1 then 1 - fr Y else fr Y) (min (if b2 then 1 - fr Z else fr Z) (if b3 then 1 - fr W else fr W)))
    | _ => 0) ?_ ?_).trans (le_of_eq ?_)
  · intro t ht
    simp only [List.map_cons, List.map_nil, List.mem_cons, List.not_mem_nil, or_false] at ht
    rcases ht with rfl | rfl | rfl | rfl <;> exact quintic_unit _
  · intro bs hb
    match bs, hb with
    | [b0, b1, b2, b3], _ =>
      simp only [offset, List.zipWith_cons_cons, List.zipWith_nil_left, gradDot, dotPerlin4_eq]
      refine (abs_perlin4 _ _ _ _ _ (min (if b0 then 1 - fr X else fr X) (min (if b1 then 1 - fr Y else fr Y) (min (if b2 then 1 - fr Z else fr Z) (if b3 then 1 - fr W else fr W))))
        ?_ ?_ ?_ ?_).trans (le_of_eq ?_) <;> simp only [abs_offset]
      · exact min_le_left _ _
      · exact (min_le_right _ _).trans (min_le_left _ _)
      · exact (min_le_right _ _).trans ((min_le_right _ _).trans (min_le_left _ _))
      · exact (min_le_right _ _).trans ((min_le_right _ _).trans (min_le_right _ _))
  · simp only [List.map_cons, List.map_nil, interp, lerp, Num.fma, S4, E4, mix, phi, Bool.false_eq_true, if_false, if_true]
    ring

end
end FastNoise.Lattice
