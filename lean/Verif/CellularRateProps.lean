import Verif.CellularProps
/-!
# C77: CellularDistance measures the distance to the nearest feature point

With a Euclidean metric and no size jitter the `Index0` output is the distance to the nearest feature point of the whole infinite lattice, stays in the
output range, and changes no faster than the position moves.  Exact arithmetic.
-/
namespace FastNoise.Cellular
open FastNoise.Hash FastNoise.Num FastNoise.Basic

noncomputable section

/-! ## Specification -/

/-- How far a feature point may lie from the centre of its cell, in cells. -/
def maxDisplacement (n : ℕ) : ℝ := if n = 2 then 0.437016 else if n = 3 then 0.396144 else 0.366025

/-- `d` is the Euclidean distance, in cells, from `pos` to the nearest feature point of the infinite lattice. -/
def IsNearest (c : Cfg) (seed : I32) (pos : Pos) (d : ℝ) : Prop :=
  (∃ m : List ℤ, m.length = pos.length ∧ d = √(distSq (feature c seed pos m) (pos.map (· / c.scale)))) ∧
  ∀ m : List ℤ, m.length = pos.length → d ≤ √(distSq (feature c seed pos m) (pos.map (· / c.scale)))

/-- The settings of these theorems: a Euclidean metric, no size jitter. -/
def Plain (c : Cfg) : Prop := (c.fn = .euclidean ∨ c.fn = .euclideanSquared) ∧ c.sizeIsNode = false ∧ c.sizeConst = 0

/-- Two to four coordinates, at cells whose neighbours have 32 bit coordinates. -/
def Fits (c : Cfg) (pos : Pos) : Prop := 2 ≤ pos.length ∧ pos.length ≤ 4 ∧ ∀ x ∈ pos, |x / c.scale| ≤ 2 ^ 30

/-! ## Lemmas -/

theorem kJitter_eq (pos : Pos) (h2 : 2 ≤ pos.length) : (tab pos).kJitter = maxDisplacement pos.length := by
  unfold tab maxDisplacement
  by_cases h : pos.length ≤ 2
  · rw [if_pos h, if_pos (by omega)]; rfl
  · rw [if_neg h, if_neg (by omega : ¬ pos.length = 2)]
    by_cases h3 : pos.length = 3
    · rw [if_pos h3, if_pos h3]; rfl
    · rw [if_neg h3, if_neg h3]; rfl

theorem maxDisplacement_pos (n : ℕ) : 0 < maxDisplacement n := by
  unfold maxDisplacement; split_ifs <;> norm_num

theorem scaled_eq (s : ℝ) (pos : Pos) : scalePositions (frequency s) pos = pos.map (· / s) := by
  simp only [scalePositions, frequency, mul_one_div]

theorem Fits.range {c : Cfg} {pos : Pos} (h : Fits c pos) : ∀ x ∈ scalePositions (frequency c.scale) pos, CellRange x := by
  rw [scaled_eq]
  intro x hx
  obtain ⟨y, hy, rfl⟩ := List.mem_map.mp hx
  have h1 := h.2.2 y hy
  have h3 := abs_sub_roundEven (y / c.scale)
  rw [abs_le] at h1 h3
  constructor
  · have : ((-2 ^ 31 : ℤ) : ℝ) < (roundEven (y / c.scale) : ℝ) := by push_cast; linarith
    exact_mod_cast this
  · have : (roundEven (y / c.scale) : ℝ) < ((2 ^ 31 : ℤ) : ℝ) := by push_cast; linarith
    exact_mod_cast this

theorem distSq_nonneg (a b : List ℝ) : 0 ≤ distSq a b := normSq_nonneg _

theorem distSq_comm (a b : List ℝ) : distSq a b = distSq b a := by
  unfold distSq
  rw [show List.zipWith (· - ·) a b = (List.zipWith (· - ·) b a).map (· * (-1)) by
    apply List.ext_getElem
    · simp [Nat.min_comm]
    · intro i h1 h2; simp]
  rw [normSq_smul]; norm_num

theorem dist_triangle (a b c : List ℝ) (h1 : a.length = b.length) (h2 : b.length = c.length) : √(distSq a c) ≤ √(distSq a b) + √(distSq b c) := by
  have e : List.zipWith (· - ·) a c = List.zipWith (· + ·) (List.zipWith (· - ·) a b) (List.zipWith (· - ·) b c) := by
    apply List.ext_getElem
    · simp; omega
    · intro i h1 h2; simp
  have := (normSq_add_le (List.zipWith (· - ·) a b) (List.zipWith (· - ·) b c) (by simp; omega)).1
  rw [← e] at this
  exact (Real.sqrt_le_left (by positivity)).mpr this

theorem feature_length (c : Cfg) (seed : I32) (pos : Pos) (h2 : 2 ≤ pos.length) (h4 : pos.length ≤ 4) (m : List ℤ) (hm : m.length = pos.length) :
    (feature c seed pos m).length = pos.length := by
  simp [feature, featurePoint, off_length pos _ h2 h4, hm]

/-- The least entry of an ascending list comes first. -/
theorem sorted_head {l : List ℝ} (hs : l.Pairwise (· ≤ ·)) {a : ℝ} (ha : l[0]? = some a) : a ∈ l ∧ ∀ x ∈ l, a ≤ x := by
  cases l with
  | nil => simp at ha
  | cons b r =>
    have : b = a := by simpa using ha
    subst this
    refine ⟨by simp, fun x hx => ?_⟩
    rcases List.mem_cons.mp hx with e | e
    · exact e.ge
    · exact (List.pairwise_cons.mp hs).1 _ e

/-- Every scanned distance is the squared distance to a feature point. -/
theorem scanned_feature (relaxed : Bool) (c : Cfg) (seed : I32) (pos : Pos) (h : Fits c pos) (hc : Plain c) {p : ℝ × I32 × List ℝ}
    (hp : p ∈ scanned relaxed false c seed pos) : ∃ m : List ℤ, m.length = pos.length ∧ p.1 = distSq (feature c seed pos m) (pos.map (· / c.scale)) := by
  have hlen : (scalePositions (frequency c.scale) pos).length = pos.length := by simp [scalePositions]
  obtain ⟨cell, hcell, hcq⟩ := List.mem_map.mp hp
  have := h.2.1
  obtain ⟨m, hm, rfl⟩ := visited_cells _ (by omega) h.range cell hcell
  have hqf : p.2.2 = feature c seed pos m := by
    rw [← hcq]; simp only [feature, cellHash, cellOf_snd, cellOf_fst m (by omega)]
  have hqd : p.1 = distSq p.2.2 (scalePositions (frequency c.scale) pos) := by
    rw [← hcq]; exact cellDistance_sq _ _ _ _ _ _ _ _ hc.1 hc.2
  exact ⟨m, by omega, by rw [hqd, hqf, scaled_eq]⟩

/-- The feature point of the own cell is within one cell plus the displacement. -/
theorem own_near (relaxed : Bool) (c : Cfg) (seed : I32) (pos : Pos) (h : Fits c pos) (hc : Plain c) (hg : |c.gridJitter seed pos| ≤ 1) :
    ∃ p ∈ scanned relaxed false c seed pos, p.1 ≤ (1 + maxDisplacement pos.length) ^ 2 := by
  obtain ⟨h2, h4, -⟩ := id h
  have hlen : (scalePositions (frequency c.scale) pos).length = pos.length := by simp [scalePositions]
  obtain ⟨p, hp, h1, -, h3⟩ := scanned_mem relaxed false c seed pos h4 ((scalePositions (frequency c.scale) pos).map roundEven) (by simp [hlen])
    (cellOf_mem_visited _ _ (by simp) (by omega) h.range (by intro j hj; simp))
  refine ⟨p, hp, ?_⟩
  rw [h3, cellDistance_sq _ _ _ _ _ _ _ _ hc.1 hc.2, h1]
  obtain ⟨scaled, hsc⟩ : ∃ s, scalePositions (frequency c.scale) pos = s := ⟨_, rfl⟩
  rw [hsc] at hlen ⊢
  have hd := C43_displacement c seed pos h2 h4 (scaled.map roundEven) (by simp [hlen])
  have hb : normSq (scaled.map (fun x => x - roundEven x)) ≤ 1 := by
    have := normSq_le_quarter (scaled.map (fun x => x - roundEven x)) (by
      intro x hx
      obtain ⟨y, _, rfl⟩ := List.mem_map.mp hx
      exact abs_sub_roundEven y)
    have hl : ((scaled.map (fun x => x - roundEven x)).length : ℝ) ≤ 4 := by rw [List.length_map, hlen]; exact_mod_cast h4
    linarith
  have hb' : distSq ((scaled.map roundEven).map (fun k : ℤ => (k : ℝ))) scaled ≤ 1 := by
    rw [distSq_comm]
    refine le_trans (le_of_eq ?_) hb
    unfold distSq
    congr 1
    apply List.ext_getElem
    · simp
    · intro i h1 h2; simp
  have t := dist_triangle (feature c seed pos (scaled.map roundEven)) ((scaled.map roundEven).map (fun k : ℤ => (k : ℝ))) scaled
    (by rw [feature_length _ _ _ h2 h4 _ (by simp [hlen])]; simp [hlen]) (by simp)
  rw [hd, kJitter_eq pos h2, Real.sqrt_sq_eq_abs, abs_mul, abs_of_pos (maxDisplacement_pos _)] at t
  have h1 : √(distSq ((scaled.map roundEven).map (fun k : ℤ => (k : ℝ))) scaled) ≤ 1 := Real.sqrt_le_one.mpr hb'
  have h5 : maxDisplacement pos.length * |c.gridJitter seed pos| ≤ maxDisplacement pos.length := mul_le_of_le_one_right (maxDisplacement_pos _).le hg
  rw [← Real.sq_sqrt (distSq_nonneg (feature c seed pos (scaled.map roundEven)) scaled)]
  exact pow_le_pow_left₀ (Real.sqrt_nonneg _) (by linarith) 2

/-- `GetReturn` only yields a number for two positive Euclidean distances. -/
theorem some_pos (relaxed : Bool) (r : Range ℝ) (c : Cfg) (rt : ReturnType) (i0 i1 : Nat) (h0 : i0 < 4) (h1 : i1 < 4) (hne : i0 ≠ i1) (hfn : c.fn = .euclidean)
    (seed : I32) (pos : Pos) (h2 : 2 ≤ pos.length) (h4 : pos.length ≤ 4) (hn : ∀ p ∈ scanned relaxed false c seed pos, 0 ≤ p.1) {o : ℝ}
    (ho : cellularDistance relaxed r c rt i0 i1 seed pos = some o) :
    ∃ l : List ℝ, l.Perm ((scanned relaxed false c seed pos).map fun p => p.1) ∧ l.Pairwise (· ≤ ·) ∧
      ∃ a b, l[i0]? = some a ∧ l[i1]? = some b ∧ 0 < a ∧ 0 < b ∧ o = r.scaleOutput (combine √a √b rt) 0 (combineMax ((1 + (tab pos).kJitter) ^ 2) rt) := by
  obtain ⟨l, hp, hs, l0, l1, e⟩ := C27_distance relaxed r c rt i0 i1 h0 h1 seed pos h2 h4
  have pos' : ∀ i (hi : i < l.length), 0 ≤ l[i] := fun i hi => by
    obtain ⟨p, hpm, he⟩ := List.mem_map.mp (hp.mem_iff.mp (List.getElem_mem hi))
    rw [← he]; exact hn p hpm
  have sq : ∀ d : ℝ, 0 < d → timesInvSqrt d = some √d := by
    intro d hd
    rw [timesInvSqrt, if_neg hd.ne', mul_one_div, Real.div_sqrt]
  rw [e] at ho
  unfold getReturn at ho
  rw [if_pos hfn] at ho
  rcases eq_or_lt_of_le (pos' i0 l0) with z | ha
  · simp only [List.getD_eq_getElem _ _ l0, ← z] at ho
    simp [timesInvSqrt] at ho
  rcases eq_or_lt_of_le (pos' i1 l1) with z | hb
  · simp only [Function.update_apply, List.getD_eq_getElem _ _ l0, List.getD_eq_getElem _ _ l1, if_neg (Ne.symm hne), sq _ ha, ← z] at ho
    simp [timesInvSqrt] at ho
  refine ⟨l, hp, hs, l[i0], l[i1], List.getElem?_eq_getElem l0, List.getElem?_eq_getElem l1, ha, hb, ?_⟩
  simp only [Function.update_apply, List.getD_eq_getElem _ _ l0, List.getD_eq_getElem _ _ l1, if_neg (Ne.symm hne), sq _ ha, sq _ hb, pure, Option.bind_eq_bind,
    Option.bind_some, if_true, if_neg hne] at ho
  have hb' : √l[i1] ≠ 0 := (Real.sqrt_pos.mpr hb).ne'
  cases rt <;> simp only [combine, combineMax, pow_two] <;> first
    | exact (Option.some.inj ho).symm
    | (rw [if_neg hb', mul_one_div] at ho; exact (Option.some.inj ho).symm)

/-! ## C77 -/

/-- **C77**: with the Euclidean metric every number `CellularDistance` returns for `Index0` is the distance to the nearest feature point of the infinite
lattice, mapped so that 0 becomes the output minimum and the square of one cell plus the displacement the output maximum. -/
theorem C77_nearest_partial (relaxed : Bool) (ops : List (SetOp ℝ)) (c : Cfg) (i1 : Nat) (h0 : i1 ≠ 0) (h1 : i1 < 4) (hfn : c.fn = .euclidean) (hc : Plain c)
    (seed : I32) (pos : Pos) (h : Fits c pos) (hg : |c.gridJitter seed pos| ≤ if pos.length = 3 then 0.99999 else 1)
    (o : ℝ) (ho : cellularDistance relaxed (rangeAfter ops) c .index0 0 i1 seed pos = some o) :
    ∃ d, IsNearest c seed pos d ∧ o = lastMin ops + d / (1 + maxDisplacement pos.length) ^ 2 * (lastMax ops - lastMin ops) := by
  obtain ⟨h2, h4, -⟩ := id h
  have hJn : |(tab pos).kJitter * c.gridJitter seed pos| * √pos.length + 2 * |(tab pos).kJitter * c.gridJitter seed pos| ^ 2 ≤ 1 := by
    by_cases h3 : pos.length = 3
    · rw [if_pos h3] at hg; exact (C43_constants_3D pos h3 _ hg).1
    · rw [if_neg h3] at hg; exact C43_constants_2D_4D pos (by omega) _ hg
  obtain ⟨l, hp, hs, a, b, ha, -, -, -, e⟩ := some_pos relaxed _ c .index0 0 i1 (by omega) h1 (Ne.symm h0) hfn seed pos h2 h4 (fun p hp => by
    obtain ⟨m, -, e⟩ := scanned_feature relaxed c seed pos h hc hp; rw [e]; exact distSq_nonneg _ _) ho
  obtain ⟨hal, hmin⟩ := sorted_head hs ha
  obtain ⟨p, hpm, rfl⟩ := List.mem_map.mp (hp.mem_iff.mp hal)
  obtain ⟨m, hm, em⟩ := scanned_feature relaxed c seed pos h hc hpm
  refine ⟨√p.1, ⟨⟨m, hm, by rw [em]⟩, fun m' hm' => Real.sqrt_le_sqrt ?_⟩, ?_⟩
  · obtain ⟨p', hp', hle⟩ := C43_nearest_visited relaxed c seed pos h2 h4 hc.1 hc.2 h.range _ rfl hJn m' hm'
    rw [scaled_eq] at hle
    exact (hmin _ (hp.mem_iff.mpr (List.mem_map_of_mem (f := fun p => p.1) hp'))).trans hle
  · have hk := maxDisplacement_pos pos.length
    obtain ⟨-, -, e', -⟩ := C24_output_range ops 0 ((1 + maxDisplacement pos.length) ^ 2) (by positivity)
    rw [e, combine, combineMax, kJitter_eq pos h2, e', sub_zero, sub_zero]

/-- **C77**: with the squared metric it is the square of that distance, for every choice of the second index. -/
theorem C77_nearest_squared_partial (relaxed : Bool) (ops : List (SetOp ℝ)) (c : Cfg) (i1 : Nat) (h1 : i1 < 4) (hfn : c.fn = .euclideanSquared) (hc : Plain c)
    (seed : I32) (pos : Pos) (h : Fits c pos) (hg : |c.gridJitter seed pos| ≤ if pos.length = 3 then 0.99999 else 1) :
    ∃ d, IsNearest c seed pos d ∧ cellularDistance relaxed (rangeAfter ops) c .index0 0 i1 seed pos =
      some (lastMin ops + d ^ 2 / (1 + maxDisplacement pos.length) ^ 2 * (lastMax ops - lastMin ops)) := by
  obtain ⟨h2, h4, -⟩ := id h
  have hJn : |(tab pos).kJitter * c.gridJitter seed pos| * √pos.length + 2 * |(tab pos).kJitter * c.gridJitter seed pos| ^ 2 ≤ 1 := by
    by_cases h3 : pos.length = 3
    · rw [if_pos h3] at hg; exact (C43_constants_3D pos h3 _ hg).1
    · rw [if_neg h3] at hg; exact C43_constants_2D_4D pos (by omega) _ hg
  obtain ⟨l, hp, hs, a, b, ha, -, e, -⟩ := C27_distance_combined_partial relaxed (rangeAfter ops) c .index0 0 i1 (by omega) h1 seed pos h2 h4
  obtain ⟨hal, hmin⟩ := sorted_head hs ha
  obtain ⟨p, hpm, rfl⟩ := List.mem_map.mp (hp.mem_iff.mp hal)
  obtain ⟨m, hm, em⟩ := scanned_feature relaxed c seed pos h hc hpm
  refine ⟨√p.1, ⟨⟨m, hm, by rw [em]⟩, fun m' hm' => Real.sqrt_le_sqrt ?_⟩, ?_⟩
  · obtain ⟨p', hp', hle⟩ := C43_nearest_visited relaxed c seed pos h2 h4 hc.1 hc.2 h.range _ rfl hJn m' hm'
    rw [scaled_eq] at hle
    exact (hmin _ (hp.mem_iff.mpr (List.mem_map_of_mem (f := fun p => p.1) hp'))).trans hle
  · have hk := maxDisplacement_pos pos.length
    obtain ⟨-, -, e', -⟩ := C24_output_range ops 0 ((1 + maxDisplacement pos.length) ^ 2) (by positivity)
    rw [e (by rw [hfn]; simp) (by simp), combine, combineMax, kJitter_eq pos h2, e', sub_zero, sub_zero, Real.sq_sqrt (by rw [em]; exact distSq_nonneg _ _)]

/-- Specification: `x` is neither below `a` and `b` nor above both. -/
def Between (a b x : ℝ) : Prop := min a b ≤ x ∧ x ≤ max a b

theorem between_of {a b t : ℝ} (h0 : 0 ≤ t) (h1 : t ≤ 1) : Between a b (a + t * (b - a)) := by
  unfold Between
  constructor
  · rcases le_total a b with h | h
    · rw [min_eq_left h]; nlinarith
    · rw [min_eq_right h]; nlinarith
  · rcases le_total a b with h | h
    · rw [max_eq_right h]; nlinarith
    · rw [max_eq_left h]; nlinarith

/-- **C77**: with a Euclidean metric and any grid jitter in [-1, 1], every number returned for `Index0` lies in the output range. -/
theorem C77_in_range (relaxed : Bool) (ops : List (SetOp ℝ)) (c : Cfg) (i1 : Nat) (h0 : i1 ≠ 0) (h1 : i1 < 4) (hc : Plain c)
    (seed : I32) (pos : Pos) (h : Fits c pos) (hg : |c.gridJitter seed pos| ≤ 1)
    (o : ℝ) (ho : cellularDistance relaxed (rangeAfter ops) c .index0 0 i1 seed pos = some o) : Between (lastMin ops) (lastMax ops) o := by
  obtain ⟨h2, h4, -⟩ := id h
  have hk := maxDisplacement_pos pos.length
  have hn : ∀ p ∈ scanned relaxed false c seed pos, 0 ≤ p.1 := fun p hp => by
    obtain ⟨m, -, e⟩ := scanned_feature relaxed c seed pos h hc hp; rw [e]; exact distSq_nonneg _ _
  obtain ⟨-, -, e', -⟩ := C24_output_range ops 0 ((1 + maxDisplacement pos.length) ^ 2) (by positivity)
  obtain ⟨q, hq, hqle⟩ := own_near relaxed c seed pos h hc hg
  have bound : ∀ {l : List ℝ} {a : ℝ}, l.Perm ((scanned relaxed false c seed pos).map fun p => p.1) → l.Pairwise (· ≤ ·) → l[0]? = some a →
      0 ≤ a ∧ a ≤ (1 + maxDisplacement pos.length) ^ 2 := by
    intro l a hp hs ha
    obtain ⟨hal, hmin⟩ := sorted_head hs ha
    obtain ⟨p, hpm, rfl⟩ := List.mem_map.mp (hp.mem_iff.mp hal)
    exact ⟨hn p hpm, (hmin _ (hp.mem_iff.mpr (List.mem_map_of_mem (f := fun p => p.1) hq))).trans hqle⟩
  rcases hc.1 with hfn | hfn
  · obtain ⟨l, hp, hs, a, b, ha, -, -, -, e⟩ := some_pos relaxed _ c .index0 0 i1 (by omega) h1 (Ne.symm h0) hfn seed pos h2 h4 hn ho
    obtain ⟨a0, a1⟩ := bound hp hs ha
    rw [e, combine, combineMax, kJitter_eq pos h2, e', sub_zero, sub_zero]
    refine between_of (by positivity) ((div_le_one (by positivity)).mpr ?_)
    refine ((Real.sqrt_le_left (by positivity)).mpr a1).trans ?_
    nlinarith
  · obtain ⟨l, hp, hs, a, b, ha, -, e, -⟩ := C27_distance_combined_partial relaxed (rangeAfter ops) c .index0 0 i1 (by omega) h1 seed pos h2 h4
    obtain ⟨a0, a1⟩ := bound hp hs ha
    rw [e (by rw [hfn]; simp) (by simp)] at ho
    rw [← Option.some.inj ho, combine, combineMax, kJitter_eq pos h2, e', sub_zero, sub_zero]
    exact between_of (by positivity) ((div_le_one (by positivity)).mpr a1)

theorem feature_congr (c : Cfg) (g : ℝ) (hg : c.gridJitter = Src.const g) (seed : I32) (p q : Pos) (h : p.length = q.length) (m : List ℤ) :
    feature c seed p m = feature c seed q m := by
  unfold feature
  have : tab p = tab q := by unfold tab; rw [h]
  rw [this, hg]; rfl

theorem distSq_scale (s : ℝ) (p q : Pos) : √(distSq (p.map (· / s)) (q.map (· / s))) = √(distSq p q) / |s| := by
  have : distSq (p.map (· / s)) (q.map (· / s)) = distSq p q * (1 / s) ^ 2 := by
    unfold distSq
    rw [show List.zipWith (· - ·) (p.map (· / s)) (q.map (· / s)) = (List.zipWith (· - ·) p q).map (· * (1 / s)) by
      apply List.ext_getElem
      · simp
      · intro i h1 h2; simp; ring]
    rw [normSq_smul]; ring
  rw [this, Real.sqrt_mul (distSq_nonneg _ _), Real.sqrt_sq_eq_abs, abs_div, abs_one, mul_one_div]

theorem nearest_lipschitz (c : Cfg) (g : ℝ) (hg : c.gridJitter = Src.const g) (seed : I32) (p q : Pos) (h2 : 2 ≤ p.length) (h4 : p.length ≤ 4) (hl : p.length = q.length)
    {d e : ℝ} (hd : IsNearest c seed p d) (he : IsNearest c seed q e) : d - e ≤ √(distSq p q) / |c.scale| := by
  obtain ⟨⟨m, hm, rfl⟩, -⟩ := he
  have h := hd.2 m (by omega)
  have t := dist_triangle (feature c seed p m) (q.map (· / c.scale)) (p.map (· / c.scale)) (by rw [feature_length c seed p h2 h4 m (by omega)]; simp [hl]) (by simp [hl])
  rw [distSq_comm (q.map _), distSq_scale] at t
  rw [← feature_congr c g hg seed p q hl m]
  linarith

/-- **C77**: with the Euclidean metric and a constant grid jitter, two returned numbers differ by at most the output range per feature size of distance
(divided by the square of one cell plus the displacement, which is more than 1). -/
theorem C77_rate_partial (relaxed : Bool) (ops : List (SetOp ℝ)) (c : Cfg) (i1 : Nat) (h0 : i1 ≠ 0) (h1 : i1 < 4) (hfn : c.fn = .euclidean) (hc : Plain c)
    (g : ℝ) (hgc : c.gridJitter = Src.const g) (seed : I32) (p q : Pos) (hp : Fits c p) (hq : Fits c q) (hl : p.length = q.length)
    (hg : |g| ≤ if p.length = 3 then 0.99999 else 1) (a b : ℝ)
    (ha : cellularDistance relaxed (rangeAfter ops) c .index0 0 i1 seed p = some a) (hb : cellularDistance relaxed (rangeAfter ops) c .index0 0 i1 seed q = some b) :
    |a - b| ≤ |lastMax ops - lastMin ops| / (1 + maxDisplacement p.length) ^ 2 * (√(distSq p q) / |c.scale|) := by
  obtain ⟨d, hd, rfl⟩ := C77_nearest_partial relaxed ops c i1 h0 h1 hfn hc seed p hp (by rw [hgc]; exact hg) a ha
  obtain ⟨e, he, rfl⟩ := C77_nearest_partial relaxed ops c i1 h0 h1 hfn hc seed q hq (by rw [hgc, ← hl]; exact hg) b hb
  have k := maxDisplacement_pos p.length
  have u1 := nearest_lipschitz c g hgc seed p q hp.1 hp.2.1 hl hd he
  have u2 := nearest_lipschitz c g hgc seed q p hq.1 hq.2.1 hl.symm he hd
  rw [distSq_comm q p] at u2
  have u : |d - e| ≤ √(distSq p q) / |c.scale| := abs_le.mpr ⟨by linarith, u1⟩
  rw [← hl, show lastMin ops + d / (1 + maxDisplacement p.length) ^ 2 * (lastMax ops - lastMin ops) - (lastMin ops + e / (1 + maxDisplacement p.length) ^ 2 * (lastMax ops - lastMin ops)) =
    (lastMax ops - lastMin ops) / (1 + maxDisplacement p.length) ^ 2 * (d - e) by ring, abs_mul, abs_div, abs_of_pos (by positivity : 0 < (1 + maxDisplacement p.length) ^ 2)]
  exact mul_le_mul_of_nonneg_left u (by positivity)

/-- The nearest feature point is within one cell plus the displacement. -/
theorem nearest_le (c : Cfg) (seed : I32) (pos : Pos) (h : Fits c pos) (hc : Plain c) (hg : |c.gridJitter seed pos| ≤ 1) {d : ℝ} (hd : IsNearest c seed pos d) :
    0 ≤ d ∧ d ≤ 1 + maxDisplacement pos.length := by
  obtain ⟨p, hp, hle⟩ := own_near false c seed pos h hc hg
  obtain ⟨m, hm, em⟩ := scanned_feature false c seed pos h hc hp
  have hk := maxDisplacement_pos pos.length
  rw [em] at hle
  refine ⟨?_, (hd.2 m hm).trans ((Real.sqrt_le_left (by positivity)).mpr hle)⟩
  obtain ⟨⟨m', -, rfl⟩, -⟩ := hd
  exact Real.sqrt_nonneg _

/-- **C77**: with the squared metric the outputs at two positions differ by at most twice the output range per feature size of distance (divided by one cell plus the displacement). -/
theorem C77_rate_squared_partial (relaxed : Bool) (ops : List (SetOp ℝ)) (c : Cfg) (i1 : Nat) (h1 : i1 < 4) (hfn : c.fn = .euclideanSquared) (hc : Plain c)
    (g : ℝ) (hgc : c.gridJitter = Src.const g) (seed : I32) (p q : Pos) (hp : Fits c p) (hq : Fits c q) (hl : p.length = q.length)
    (hg : |g| ≤ if p.length = 3 then 0.99999 else 1) :
    ∃ a b, cellularDistance relaxed (rangeAfter ops) c .index0 0 i1 seed p = some a ∧ cellularDistance relaxed (rangeAfter ops) c .index0 0 i1 seed q = some b ∧
      |a - b| ≤ 2 * |lastMax ops - lastMin ops| / (1 + maxDisplacement p.length) * (√(distSq p q) / |c.scale|) := by
  obtain ⟨d, hd, ed⟩ := C77_nearest_squared_partial relaxed ops c i1 h1 hfn hc seed p hp (by rw [hgc]; exact hg)
  obtain ⟨e, he, ee⟩ := C77_nearest_squared_partial relaxed ops c i1 h1 hfn hc seed q hq (by rw [hgc, ← hl]; exact hg)
  refine ⟨_, _, ed, ee, ?_⟩
  have g1 : |g| ≤ 1 := hg.trans (by split_ifs <;> norm_num)
  have k := maxDisplacement_pos p.length
  have bd := nearest_le c seed p hp hc (by rw [hgc]; exact g1) hd
  have be := nearest_le c seed q hq hc (by rw [hgc]; exact g1) he
  rw [← hl] at be
  have u1 := nearest_lipschitz c g hgc seed p q hp.1 hp.2.1 hl hd he
  have u2 := nearest_lipschitz c g hgc seed q p hq.1 hq.2.1 hl.symm he hd
  rw [distSq_comm q p] at u2
  have u : |d - e| ≤ √(distSq p q) / |c.scale| := abs_le.mpr ⟨by linarith, u1⟩
  have s : |d + e| ≤ 2 * (1 + maxDisplacement p.length) := abs_le.mpr ⟨by linarith, by linarith⟩
  have sq : |d ^ 2 - e ^ 2| ≤ 2 * (1 + maxDisplacement p.length) * (√(distSq p q) / |c.scale|) := by
    rw [show d ^ 2 - e ^ 2 = (d + e) * (d - e) by ring, abs_mul]
    exact mul_le_mul s u (abs_nonneg _) (by positivity)
  rw [← hl, show lastMin ops + d ^ 2 / (1 + maxDisplacement p.length) ^ 2 * (lastMax ops - lastMin ops) - (lastMin ops + e ^ 2 / (1 + maxDisplacement p.length) ^ 2 * (lastMax ops - lastMin ops)) =
    (lastMax ops - lastMin ops) / (1 + maxDisplacement p.length) ^ 2 * (d ^ 2 - e ^ 2) by ring, abs_mul, abs_div, abs_of_pos (by positivity : 0 < (1 + maxDisplacement p.length) ^ 2)]
  refine (mul_le_mul_of_nonneg_left sq (by positivity)).trans (le_of_eq ?_)
  have k0 : 1 + maxDisplacement p.length ≠ 0 := by positivity
  generalize √(distSq p q) / |c.scale| = X
  field_simp

/-! ## The hypotheses are met -/

theorem sample_plain (g : ℝ) : Plain (sampleCfg .euclidean g) := ⟨Or.inl rfl, rfl, rfl⟩
theorem sample_fits (g : ℝ) (f : DistFn) (x y : ℝ) (hx : |x| ≤ 2 ^ 30) (hy : |y| ≤ 2 ^ 30) : Fits (sampleCfg f g) [x, y] := by
  refine ⟨by simp, by simp, ?_⟩
  intro z hz
  simp only [List.mem_cons, List.not_mem_nil, or_false] at hz
  rcases hz with rfl | rfl <;> simpa [sampleCfg]

/-- A number is returned: without grid jitter, a quarter of a cell from a lattice point, the output is that quarter. -/
theorem sample_number (y : ℝ) (hy : |y| ≤ 2 ^ 30) : ∃ o, cellularDistance false (rangeAfter []) (sampleCfg .euclidean 0) .index0 0 1 7 [1 / 4, y] = some o := by
  have hf := sample_fits 0 .euclidean (1 / 4) y (by norm_num [abs_of_pos]) hy
  obtain ⟨l, hp, hs, a, b, ha, hb, -, e⟩ := C27_distance_combined_partial false (rangeAfter []) (sampleCfg .euclidean 0) .index0 0 1 (by simp) (by simp) 7 [1 / 4, y] (by simp) (by simp)
  have hpos : ∀ x ∈ l, 0 < x := by
    intro x hx
    obtain ⟨p, hpm, rfl⟩ := List.mem_map.mp (hp.mem_iff.mp hx)
    obtain ⟨m, hm, em⟩ := scanned_feature false _ 7 _ hf (sample_plain 0) hpm
    rw [em]
    refine lt_of_le_of_ne (distSq_nonneg _ _) fun hz => ?_
    have t := dist_triangle (m.map (fun k : ℤ => (k : ℝ))) (feature (sampleCfg .euclidean 0) 7 [1 / 4, y] m) ([1 / 4, y].map (· / (sampleCfg .euclidean 0).scale))
      (by rw [feature_length _ _ _ (by simp) (by simp) _ hm]; simpa using hm) (by rw [feature_length _ _ _ (by simp) (by simp) _ hm]; simp)
    rw [← hz, distSq_comm (m.map _) (feature _ _ _ m), C43_displacement _ _ _ (by simp) (by simp) m hm] at t
    have z : ((tab [1 / 4, y]).kJitter * (sampleCfg .euclidean 0).gridJitter 7 [1 / 4, y]) ^ 2 = 0 := by simp [sampleCfg, Src.const]
    rw [z, Real.sqrt_zero, add_zero] at t
    have t' : distSq (m.map (fun k : ℤ => (k : ℝ))) ([1 / 4, y].map (· / (sampleCfg .euclidean 0).scale)) = 0 := le_antisymm (Real.sqrt_eq_zero'.mp (le_antisymm t (Real.sqrt_nonneg _))) (distSq_nonneg _ _)
    obtain ⟨i, j, rfl⟩ : ∃ i j, m = [i, j] := by
      exact List.length_eq_two.mp hm
    have hsc : (sampleCfg .euclidean 0).scale = 1 := rfl
    rw [hsc] at t'
    simp only [distSq, List.map_cons, List.map_nil, div_one, List.zipWith_cons_cons, List.zipWith_nil_left, normSq_cons, normSq_nil] at t'
    have h1 : ((i : ℝ) - 1 / 4) ^ 2 = 0 := by nlinarith [sq_nonneg ((i : ℝ) - 1 / 4), sq_nonneg ((j : ℝ) - y)]
    have h2 : (4 * i : ℝ) = 1 := by nlinarith [pow_eq_zero_iff (two_ne_zero) |>.mp h1]
    have : (4 * i : ℤ) = 1 := by exact_mod_cast h2
    omega
  exact ⟨_, e rfl (by decide) (hpos _ (List.mem_of_getElem? ha)) (hpos _ (List.mem_of_getElem? hb))⟩

example : ∃ o d, cellularDistance false (rangeAfter []) (sampleCfg .euclidean 0) .index0 0 1 7 [1 / 4, 0] = some o ∧ IsNearest (sampleCfg .euclidean 0) 7 [1 / 4, 0] d ∧
    o = -1 + d / (1 + 0.437016) ^ 2 * (1 - -1) ∧ Between (-1) 1 o := by
  obtain ⟨o, ho⟩ := sample_number 0 (by norm_num)
  have hf := sample_fits 0 .euclidean (1 / 4) 0 (by norm_num [abs_of_pos]) (by norm_num)
  obtain ⟨d, hd, e⟩ := C77_nearest_partial false [] _ 1 (by simp) (by simp) rfl (sample_plain 0) 7 _ hf (by simp [sampleCfg, Src.const]) o ho
  exact ⟨o, d, ho, hd, by simpa [lastMin, lastMax, maxDisplacement] using e,
    by simpa [lastMin, lastMax] using C77_in_range false [] _ 1 (by simp) (by simp) (sample_plain 0) 7 _ hf (by simp [sampleCfg, Src.const]) o ho⟩

example : ∃ o o', cellularDistance false (rangeAfter []) (sampleCfg .euclidean 0) .index0 0 1 7 [1 / 4, 0] = some o ∧
    cellularDistance false (rangeAfter []) (sampleCfg .euclidean 0) .index0 0 1 7 [1 / 4, 0.1] = some o' ∧
    |o - o'| ≤ |1 - -1| / (1 + maxDisplacement 2) ^ 2 * (√(distSq [1 / 4, 0] [1 / 4, 0.1]) / |1|) := by
  obtain ⟨o, ho⟩ := sample_number 0 (by norm_num)
  obtain ⟨o', ho'⟩ := sample_number 0.1 (by norm_num [abs_of_pos])
  exact ⟨o, o', ho, ho', by
    simpa [lastMin, lastMax, sampleCfg] using C77_rate_partial false [] (sampleCfg .euclidean 0) 1 (by simp) (by simp) rfl (sample_plain 0) 0 rfl 7 [1 / 4, 0] [1 / 4, 0.1]
      (sample_fits _ _ _ _ (by norm_num [abs_of_pos]) (by norm_num)) (sample_fits _ _ _ _ (by norm_num [abs_of_pos]) (by norm_num [abs_of_pos])) rfl (by simp) o o' ho ho'⟩

example : ∃ d, IsNearest (sampleCfg .euclideanSquared 1) 7 [0.3, 0.6] d ∧
    cellularDistance false (rangeAfter []) (sampleCfg .euclideanSquared 1) .index0 0 0 7 [0.3, 0.6] = some (lastMin [] + d ^ 2 / (1 + maxDisplacement 2) ^ 2 * (lastMax [] - lastMin [])) :=
  C77_nearest_squared_partial false [] (sampleCfg .euclideanSquared 1) 0 (by simp) rfl ⟨Or.inr rfl, rfl, rfl⟩ 7 [0.3, 0.6]
    (sample_fits _ _ _ _ (by norm_num [abs_of_pos]) (by norm_num [abs_of_pos])) (by simp [sampleCfg, Src.const])

example : ∃ a b, cellularDistance true (rangeAfter []) (sampleCfg .euclideanSquared 1) .index0 0 0 7 [0.3, 0.6] = some a ∧
    cellularDistance true (rangeAfter []) (sampleCfg .euclideanSquared 1) .index0 0 0 7 [0.3, 0.7] = some b ∧
    |a - b| ≤ 2 * |lastMax [] - lastMin []| / (1 + maxDisplacement 2) * (√(distSq [0.3, 0.6] [0.3, 0.7]) / |1|) :=
  C77_rate_squared_partial true [] (sampleCfg .euclideanSquared 1) 0 (by simp) rfl ⟨Or.inr rfl, rfl, rfl⟩ 1 rfl 7 [0.3, 0.6] [0.3, 0.7]
    (sample_fits _ _ _ _ (by norm_num [abs_of_pos]) (by norm_num [abs_of_pos])) (sample_fits _ _ _ _ (by norm_num [abs_of_pos]) (by norm_num [abs_of_pos])) rfl (by simp)

end
end FastNoise.Cellular
