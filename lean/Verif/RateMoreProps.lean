import Verif.RateProps
import Verif.RotateProps
import Verif.CellularRateProps
import Mathlib.Analysis.SpecialFunctions.Trigonometric.Bounds
/-!
# C76, continued: the elementary sources, cellular distances and the rotations
-/
namespace FastNoise.Rate
open FastNoise.Hash FastNoise.Num FastNoise.Basic FastNoise.Lattice
open FastNoise.Modifiers (sqDist)

noncomputable section

/-! ## Sources -/

theorem abs_prod_sin_le (f : ℝ) : ∀ p : Pos, |(p.map fun a => Real.sin (a * f)).prod| ≤ 1
  | [] => by simp
  | a :: p => by
    rw [List.map_cons, List.prod_cons, abs_mul]
    exact mul_le_one₀ (Real.abs_sin_le_one _) (abs_nonneg _) (abs_prod_sin_le f p)

theorem prod_sin_rate (f : ℝ) : ∀ p q : Pos, p.length = q.length →
    |(p.map fun a => Real.sin (a * f)).prod - (q.map fun a => Real.sin (a * f)).prod| ≤ manhattan p q * |f|
  | [], [], _ => by simp [manhattan]
  | a :: p, b :: q, h => by
    rw [List.map_cons, List.prod_cons, List.map_cons, List.prod_cons, manhattan_cons]
    have ih := prod_sin_rate f p q (by simpa using h)
    have b1 := abs_prod_sin_le f q
    have s1 := Real.abs_sin_le_one (a * f)
    have s2 := Real.abs_sin_sub_sin_le (a * f) (b * f)
    rw [← sub_mul, abs_mul] at s2
    generalize (p.map fun a => Real.sin (a * f)).prod = P at *
    generalize (q.map fun a => Real.sin (a * f)).prod = Q at *
    generalize Real.sin (a * f) = A at *
    generalize Real.sin (b * f) = B at *
    have e : A * P - B * Q = A * (P - Q) + (A - B) * Q := by ring
    rw [e]
    refine (abs_add_le _ _).trans ?_
    rw [abs_mul, abs_mul]
    have := mul_le_mul s1 ih (abs_nonneg _) zero_le_one
    have := mul_le_mul s2 b1 (abs_nonneg _) (by positivity)
    linarith

theorem foldMul_prod (g : ℝ → ℝ) : ∀ p : Pos, foldMul g p = (p.map g).prod
  | [] => rfl
  | [a] => by simp [foldMul]
  | a :: b :: r => by rw [foldMul, foldMul_prod g (b :: r)]; simp; simp

/-- **C76**: SineWave changes by at most half its output range per feature size. -/
theorem C76_sine (ops : List (SetOp ℝ)) (scale : ℝ) :
    ChangesAtMost (fun _ => True) (|lastMax ops - lastMin ops| / 2 / |scale|) (sineWave (rangeAfter ops) (frequency scale)) := by
  intro seed p q hl _ _
  unfold sineWave
  have e : ∀ r : Pos, foldMul Real.sin (scalePositions (frequency scale) r) = (r.map fun a => Real.sin (a * (1 / scale))).prod := by
    intro r
    rw [foldMul_prod, scalePositions, List.map_map, frequency]; rfl
  rw [e, e]
  have h := prod_sin_rate (1 / scale) p q hl
  refine (Simplex.scaled_rate ops (b := 1) (c := 1) (D := manhattan p q * |1 / scale|) one_pos (by linarith)).trans (le_of_eq ?_)
  rw [abs_div, abs_one]; ring

/-- **C76**: Gradient with constant offsets changes by at most its largest multiplier. -/
theorem C76_gradient (offset mult : Nat → ℝ) {M : ℝ} (hM : ∀ k, |mult k| ≤ M) :
    ChangesAtMost (fun _ => True) M (gradient (fun k => Src.const (offset k)) mult) := by
  intro seed p q hl _ _
  rw [C37_gradient, C37_gradient]
  simp only [Src.const]
  clear seed
  induction p generalizing q offset mult with
  | nil => cases q with
    | nil => simp [manhattan]
    | cons => simp at hl
  | cons a p ih => cases q with
    | nil => simp at hl
    | cons b q =>
      have := ih (fun k => offset (k + 1)) (fun k => mult (k + 1)) (fun k => hM (k + 1)) q (by simpa using hl)
      rw [List.mapIdx_cons, List.mapIdx_cons, List.sum_cons, List.sum_cons, manhattan_cons]
      generalize (p.mapIdx fun i p => (p + offset (i + 1)) * mult (i + 1)).sum = P at *
      generalize (q.mapIdx fun i p => (p + offset (i + 1)) * mult (i + 1)).sum = Q at *
      have e : (a + offset 0) * mult 0 + P - ((b + offset 0) * mult 0 + Q) = (a - b) * mult 0 + (P - Q) := by ring
      rw [e]
      refine (abs_add_le _ _).trans ?_
      rw [abs_mul]
      have := mul_le_mul_of_nonneg_left (hM 0) (abs_nonneg (a - b))
      linarith

theorem sum_abs_rate : ∀ p q : Pos, p.length = q.length → |(p.map fun a => |a|).sum - (q.map fun a => |a|).sum| ≤ manhattan p q
  | [], [], _ => by simp [manhattan]
  | a :: p, b :: q, h => by
    have := sum_abs_rate p q (by simpa using h)
    simp only [List.map_cons, List.sum_cons, manhattan_cons]
    have h1 := abs_abs_sub_abs_le_abs_sub a b
    rw [show |a| + (p.map fun a => |a|).sum - (|b| + (q.map fun a => |a|).sum) = (|a| - |b|) + ((p.map fun a => |a|).sum - (q.map fun a => |a|).sum) by ring]
    exact (abs_add_le _ _).trans (add_le_add h1 this)

theorem foldl_max_rate : ∀ (p q : Pos) (x y : ℝ), p.length = q.length →
    |(p.map fun a => |a|).foldl max x - (q.map fun a => |a|).foldl max y| ≤ max |x - y| (manhattan p q)
  | [], [], x, y, _ => by simp
  | a :: p, b :: q, x, y, h => by
    simp only [List.map_cons, List.foldl_cons, manhattan_cons]
    refine (foldl_max_rate p q _ _ (by simpa using h)).trans (max_le ?_ ?_)
    · refine (abs_max_sub_max_le_max x |a| y |b|).trans (max_le_max le_rfl ?_)
      exact (abs_abs_sub_abs_le_abs_sub a b).trans (le_add_of_nonneg_right (manhattan_nonneg _ _))
    · exact le_max_of_le_right (le_add_of_nonneg_left (abs_nonneg _))

theorem norm_rate (p q : Pos) (h : p.length = q.length) : |√(p.map fun a => a ^ 2).sum - √(q.map fun a => a ^ 2).sum| ≤ manhattan p q := by
  have euc : ∀ p q : Pos, p.length = q.length → Cellular.distSq p q ≤ manhattan p q ^ 2 := by
    intro p
    induction p with
    | nil => intro q _; simp [Cellular.distSq, manhattan]
    | cons a p ih => intro q h; cases q with
      | nil => simp at h
      | cons b q =>
        have := ih q (by simpa using h)
        have e : Cellular.distSq (a :: p) (b :: q) = (a - b) ^ 2 + Cellular.distSq p q := by simp [Cellular.distSq]
        rw [e, manhattan_cons]
        nlinarith [sq_abs (a - b), mul_nonneg (abs_nonneg (a - b)) (manhattan_nonneg p q)]
  have z : ∀ r : Pos, (r.map fun a => a ^ 2).sum = Cellular.distSq r (r.map fun _ => 0) := by
    intro r
    unfold Cellular.distSq Cellular.normSq
    congr 1
    apply List.ext_getElem
    · simp
    · intro i h1 h2; simp
  have zz : (p.map fun _ => (0 : ℝ)) = q.map fun _ => 0 := by
    apply List.ext_getElem
    · simpa using h
    · intro i h1 h2; simp
  have d : √(Cellular.distSq p q) ≤ manhattan p q := (Real.sqrt_le_left (manhattan_nonneg _ _)).mpr (euc p q h)
  have t1 := Cellular.dist_triangle p q (q.map fun _ => 0) h (by simp)
  have t2 := Cellular.dist_triangle q p (p.map fun _ => 0) h.symm (by simp)
  rw [Cellular.distSq_comm q p, zz] at t2
  rw [z, z, zz]
  exact abs_le.mpr ⟨by linarith, by linarith⟩

/-- **C76**: the distance to a constant point changes by at most the distance moved, for the Euclidean, Manhattan and MaxAxis metrics. -/
theorem C76_distance (relaxed : Bool) (mp : Src) (point : Nat → ℝ) (fn : DistFn) (hf : fn = .euclidean ∨ fn = .manhattan ∨ fn = .maxAxis) :
    ChangesAtMost (fun p => p ≠ []) 1 (distanceToPoint relaxed fn mp fun k => Src.const (point k)) := by
  intro seed p q hl hp hq
  rw [C37_distanceToPoint _ _ _ _ _ _ hp, C37_distanceToPoint _ _ _ _ _ _ hq, one_mul]
  simp only [Src.const]
  have hm : manhattan (p.mapIdx fun i a => a - point i) (q.mapIdx fun i a => a - point i) ≤ manhattan p q := by
    refine (manhattan_mapIdx (c := 1) (E := 0) p q _ _ hl ?_).trans (by simp)
    intro k a b
    simp
  have hl' : (p.mapIdx fun i a => a - point i).length = (q.mapIdx fun i a => a - point i).length := by simpa using hl
  refine le_trans ?_ hm
  rcases hf with rfl | rfl | rfl <;> simp only [distSpec]
  · exact norm_rate _ _ hl'
  · exact sum_abs_rate _ _ hl'
  · refine (foldl_max_rate _ _ 0 0 hl').trans ?_
    rw [sub_self, abs_zero]
    exact max_le (manhattan_nonneg _ _) le_rfl

variable {D : Pos → Prop} {K : ℝ} {s : Src}

/-! ## Rotations -/

theorem three_le {a b c S : ℝ} (hS : 0 ≤ S) (h : a ^ 2 + b ^ 2 + c ^ 2 ≤ S ^ 2) : |a| + |b| + |c| ≤ 7 / 4 * S := by
  have h1 : (|a| + |b| + |c|) ^ 2 ≤ (7 / 4 * S) ^ 2 := by
    nlinarith [sq_nonneg (|a| - |b|), sq_nonneg (|b| - |c|), sq_nonneg (|a| - |c|), sq_abs a, sq_abs b, sq_abs c, sq_nonneg S]
  exact (pow_le_pow_iff_left₀ (by positivity) (by positivity) two_ne_zero).mp h1

theorem sqDist_le : ∀ p q : Pos, p.length = q.length → sqDist p q ≤ manhattan p q ^ 2
  | [], [], _ => by simp [sqDist, manhattan]
  | a :: p, b :: q, h => by
    have := sqDist_le p q (by simpa using h)
    have e : sqDist (a :: p) (b :: q) = (a - b) ^ 2 + sqDist p q := by simp [sqDist]
    rw [e, manhattan_cons]
    nlinarith [sq_abs (a - b), mul_nonneg (abs_nonneg (a - b)) (manhattan_nonneg p q)]

/-- **C76**: turning the domain by any angles multiplies the rate by at most 7/4 (the exact factor is at most √3: distances are counted along the axes). -/
theorem C76_rotate (hK : 0 ≤ K) (hs : ChangesAtMost D K s) (ops : List Modifiers.RotOp) :
    ChangesAtMost (fun p => 2 ≤ p.length ∧ p.length ≤ 4 ∧ D (Modifiers.rotatePos (Modifiers.Rot.after ops) p)) (7 / 4 * K) (Modifiers.domainRotate (Modifiers.Rot.after ops) s) := by
  intro seed p q hl hp hq
  have hr := Modifiers.C32_rigid ops p q hl
  have hle := sqDist_le p q hl
  have M := manhattan_nonneg p q
  have key : (Modifiers.rotatePos (Modifiers.Rot.after ops) p).length = (Modifiers.rotatePos (Modifiers.Rot.after ops) q).length ∧
      manhattan (Modifiers.rotatePos (Modifiers.Rot.after ops) p) (Modifiers.rotatePos (Modifiers.Rot.after ops) q) ≤ 7 / 4 * manhattan p q := by
    have h3 : ∀ u v : Pos, u.length = 3 → v.length = 3 → sqDist u v ≤ manhattan p q ^ 2 → manhattan u v ≤ 7 / 4 * manhattan p q := by
      intro u v hu hv h
      obtain ⟨a, b, c, rfl⟩ := List.length_eq_three.mp hu
      obtain ⟨a', b', c', rfl⟩ := List.length_eq_three.mp hv
      have := three_le (a := a - a') (b := b - b') (c := c - c') M (by simpa [sqDist, add_assoc] using h)
      simpa [manhattan, add_assoc] using this
    have h2 : ∀ u v : Pos, u.length = 2 → v.length = 2 → sqDist u v ≤ manhattan p q ^ 2 → manhattan u v ≤ 7 / 4 * manhattan p q := by
      intro u v hu hv h
      obtain ⟨a, b, rfl⟩ := List.length_eq_two.mp hu
      obtain ⟨a', b', rfl⟩ := List.length_eq_two.mp hv
      have := three_le (a := a - a') (b := b - b') (c := 0) M (by simpa [sqDist] using h)
      simpa [manhattan] using this
    rw [← hr] at hle
    match p, q, hl, hp, hle with
    | [x, y], [x', y'], _, _, hle =>
      rw [Modifiers.rotatePos2, Modifiers.rotatePos2] at *
      split_ifs at hle ⊢
      · exact ⟨rfl, h2 _ _ rfl rfl hle⟩
      · exact ⟨rfl, h3 _ _ rfl rfl hle⟩
    | [x, y, z], [x', y', z'], _, _, hle => exact ⟨rfl, h3 _ _ rfl rfl hle⟩
    | [x, y, z, w], [x', y', z', w'], _, _, _ => exact ⟨rfl, by change manhattan [x, y, z, w] [x', y', z', w'] ≤ _; linarith⟩
    | [], [], _, hp, _ => simp at hp
    | [_], [_], _, hp, _ => simp at hp
    | _ :: _ :: _ :: _ :: _ :: _, _, _, hp, _ => exact absurd hp.2.1 (by simp)
  refine (hs seed _ _ key.1 hp.2.2 hq.2.2).trans ?_
  nlinarith [mul_le_mul_of_nonneg_left key.2 hK]

theorem plane_rate (u v w : ℝ) :
    |u + (u + v) * Modifiers.kS2 - w * Modifiers.kThird| + |v + (u + v) * Modifiers.kS2 - w * Modifiers.kThird| + |w * Modifiers.kThird + (u + v) * Modifiers.kThird| ≤
      7 / 4 * (|u| + |v| + |w|) := by
  have h : ∀ a b c : ℝ, |a * u + b * v + c * w| ≤ |a| * |u| + |b| * |v| + |c| * |w| := by
    intro a b c
    rw [← abs_mul, ← abs_mul, ← abs_mul]
    exact abs_add_three _ _ _
  have e1 := h (1 + Modifiers.kS2) Modifiers.kS2 (-Modifiers.kThird)
  have e2 := h Modifiers.kS2 (1 + Modifiers.kS2) (-Modifiers.kThird)
  have e3 := h Modifiers.kThird Modifiers.kThird Modifiers.kThird
  rw [show u + (u + v) * Modifiers.kS2 - w * Modifiers.kThird = (1 + Modifiers.kS2) * u + Modifiers.kS2 * v + (-Modifiers.kThird) * w by ring,
    show v + (u + v) * Modifiers.kS2 - w * Modifiers.kThird = Modifiers.kS2 * u + (1 + Modifiers.kS2) * v + (-Modifiers.kThird) * w by ring,
    show w * Modifiers.kThird + (u + v) * Modifiers.kThird = Modifiers.kThird * u + Modifiers.kThird * v + Modifiers.kThird * w by ring]
  have a1 : |1 + Modifiers.kS2| ≤ 0.7887 := by norm_num [Modifiers.kS2, abs_of_pos]
  have a2 : |Modifiers.kS2| ≤ 0.2114 := by rw [abs_le]; norm_num [Modifiers.kS2]
  have a3 : |Modifiers.kThird| ≤ 0.5774 := by rw [abs_le]; norm_num [Modifiers.kThird]
  rw [abs_neg] at e1 e2
  have U := abs_nonneg u; have V := abs_nonneg v; have W := abs_nonneg w
  have u1 := mul_le_mul_of_nonneg_right a1 U; have u2 := mul_le_mul_of_nonneg_right a2 U; have u3 := mul_le_mul_of_nonneg_right a3 U
  have v1 := mul_le_mul_of_nonneg_right a1 V; have v2 := mul_le_mul_of_nonneg_right a2 V; have v3 := mul_le_mul_of_nonneg_right a3 V
  have w3 := mul_le_mul_of_nonneg_right a3 W
  linarith

/-- **C76**: so do the preset plane rotations. -/
theorem C76_rotate_plane (hK : 0 ≤ K) (hs : ChangesAtMost D K s) (t : Modifiers.Plane) :
    ChangesAtMost (fun p => 2 ≤ p.length ∧ p.length ≤ 4 ∧ D (Modifiers.rotatePlanePos t p)) (7 / 4 * K) (Modifiers.domainRotatePlane t s) := by
  intro seed p q hl hp hq
  have key : (Modifiers.rotatePlanePos t p).length = (Modifiers.rotatePlanePos t q).length ∧
      manhattan (Modifiers.rotatePlanePos t p) (Modifiers.rotatePlanePos t q) ≤ 7 / 4 * manhattan p q := by
    match p, q, hl, hp with
    | [x, y], [x', y'], _, _ =>
      refine ⟨rfl, ?_⟩
      have := plane_rate (x - x') (y - y') 0
      simp only [Modifiers.rotatePlanePos, Modifiers.rotateCoords, manhattan, List.zipWith_cons_cons, List.zipWith_nil_left, List.sum_cons, List.sum_nil]
      refine le_trans (le_of_eq ?_) (this.trans (le_of_eq ?_))
      · ring_nf
      · simp
    | [x, y, z], [x', y', z'], _, _ =>
      refine ⟨rfl, ?_⟩
      cases t
      · have := plane_rate (x - x') (y - y') (z - z')
        simp only [Modifiers.rotatePlanePos, Modifiers.rotateCoords, manhattan, List.zipWith_cons_cons, List.zipWith_nil_left, List.sum_cons, List.sum_nil]
        refine le_trans (le_of_eq ?_) (this.trans (le_of_eq ?_)) <;> ring_nf
      · have := plane_rate (x - x') (z - z') (y - y')
        simp only [Modifiers.rotatePlanePos, Modifiers.rotateCoords, manhattan, List.zipWith_cons_cons, List.zipWith_nil_left, List.sum_cons, List.sum_nil]
        refine le_trans (le_of_eq ?_) (this.trans (le_of_eq ?_)) <;> ring_nf
    | [x, y, z, w], [x', y', z', w'], _, _ =>
      refine ⟨rfl, ?_⟩
      have W := abs_nonneg (w - w')
      cases t
      · have := plane_rate (x - x') (y - y') (z - z')
        simp only [Modifiers.rotatePlanePos, Modifiers.rotateCoords, manhattan, List.zipWith_cons_cons, List.zipWith_nil_left, List.sum_cons, List.sum_nil]
        have h := add_le_add this (le_mul_of_one_le_left W (by norm_num : (1 : ℝ) ≤ 7 / 4))
        refine le_trans (le_of_eq ?_) (h.trans (le_of_eq ?_)) <;> ring_nf
      · have := plane_rate (x - x') (z - z') (y - y')
        simp only [Modifiers.rotatePlanePos, Modifiers.rotateCoords, manhattan, List.zipWith_cons_cons, List.zipWith_nil_left, List.sum_cons, List.sum_nil]
        have h := add_le_add this (le_mul_of_one_le_left W (by norm_num : (1 : ℝ) ≤ 7 / 4))
        refine le_trans (le_of_eq ?_) (h.trans (le_of_eq ?_)) <;> ring_nf
    | [], [], _, hp => simp at hp
    | [_], [_], _, hp => simp at hp
    | _ :: _ :: _ :: _ :: _ :: _, _, _, hp => exact absurd hp.2.1 (by simp)
  refine (hs seed _ _ key.1 hp.2.2 hq.2.2).trans ?_
  nlinarith [mul_le_mul_of_nonneg_left key.2 hK]

/-! ## The hypotheses are met -/

/-- A sine wave of scale 100 on a plane turned by a yaw and a pitch and then preset XZ. -/
example (seed : I32) (x y : ℝ) :
    let node := Modifiers.domainRotatePlane .xz (Modifiers.domainRotate (Modifiers.Rot.after [.yaw 1, .pitch 2]) (sineWave (rangeAfter []) (frequency 100)))
    |node seed [x, y] - node seed [x + 1, y]| ≤ 0.031 := by
  intro node
  have h := C76_rotate_plane (by positivity) (C76_rotate (by positivity) (C76_sine [] 100) [.yaw 1, .pitch 2]) .xz seed [x, y] [x + 1, y] rfl
    ⟨by simp, by simp, by simp [Modifiers.rotatePlanePos], by simp [Modifiers.rotatePlanePos], trivial⟩
    ⟨by simp, by simp, by simp [Modifiers.rotatePlanePos], by simp [Modifiers.rotatePlanePos], trivial⟩
  have m : manhattan [x, y] [x + 1, y] = 1 := by simp [manhattan]
  rw [m] at h
  refine h.trans ?_
  norm_num [lastMin, lastMax, abs_of_pos]

example (seed : I32) (x y : ℝ) :
    let node := Modifiers.blend .add (gradient (fun _ => Src.const 3) fun k => if k = 0 then -2 else 1) (distanceToPoint true .euclidean (Src.const 2) fun _ => Src.const 5)
    |node seed [x, y] - node seed [x + 1, y]| ≤ 3 := by
  intro node
  have g : ChangesAtMost (fun p => p ≠ []) 2 (gradient (fun _ => Src.const 3) fun k => if k = 0 then -2 else 1) := fun seed p q h _ _ =>
    C76_gradient (fun _ => 3) (fun k => if k = 0 then -2 else 1) (M := 2) (fun k => by split_ifs <;> norm_num) seed p q h trivial trivial
  have h := (C76_blends (A := 0) (B := 0) g (C76_distance true (Src.const 2) (fun _ => 5) .euclidean (Or.inl rfl))).1 seed [x, y] [x + 1, y] rfl (by simp) (by simp)
  have m : manhattan [x, y] [x + 1, y] = 1 := by simp [manhattan]
  rw [m] at h
  exact h.trans (by norm_num)

end
end FastNoise.Rate
