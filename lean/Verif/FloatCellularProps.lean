import Verif.FloatCellularCells
/-!
# C70: cellular noise in binary32 arithmetic

What the cellular generators return when every operation rounds, compared with the true distances between the sample and the feature points (C43 says where these are).
-/
namespace FastNoise.FloatCellular
open FastNoise.Hash FastNoise.Num FastNoise.Basic FastNoise.F32
open FastNoise.Cellular (Cfg Tab tab nested cellHash normSq feature insertDistance insertValue bubble ReturnType)

/-- Specification: the hash of a lattice cell. -/
def cubeHash (c : Cfg) (seed : I32) (m : List ℤ) : I32 := hashPrimesHB (seed + c.seedOffset) (primed (m.map (BitVec.ofInt 32)))

/-- Specification: the true distance from the (scaled) sample to the feature point of a lattice cell, no rounding. -/
noncomputable def trueDistance (c : Cfg) (seed : I32) (pos : Pos) (x : Pos) (m : List ℤ) : ℝ :=
  metric c.fn (List.zipWith (· - ·) (feature c seed pos m) x)

/-- The sample position in cell units, as the code computes it. -/
noncomputable abbrev scaledPos (c : Cfg) (pos : Pos) : Pos := F32.scalePositions (F32.frequency c.scale) pos

/-- The circumstances of C70: 2 to 4 dimensions, a metric other than Minkowski, no size jitter, grid jitter at most 1 in size, an inverse square root with relative error at most `ρ`,
and a sample whose scaled coordinates are below `2^k` (`k ≤ 22`). -/
structure Setup (A : Chip) (c : Cfg) (seed : I32) (pos : Pos) (k : ℤ) (ρ : ℝ) : Prop where
  two : 2 ≤ pos.length
  four : pos.length ≤ 4
  fn : c.fn ≠ .minkowski
  size : c.sizeIsNode = false ∧ c.sizeConst = 0
  jitter : |c.gridJitter seed pos| ≤ 1
  rsqrt : ∀ v : ℝ, 2 ^ (-126 : ℤ) ≤ v → |A.invSqrt v * √v - 1| ≤ ρ
  rho : ρ ≤ 1 / 16
  k1 : 1 ≤ k
  k22 : k ≤ 22
  near : ∀ x ∈ scaledPos c pos, |x| ≤ 2 ^ k - 3

variable {A : Chip} {c : Cfg} {seed : I32} {pos : Pos} {k : ℤ} {ρ : ℝ}

theorem Setup.rho0 (h : Setup A c seed pos k ρ) : 0 ≤ ρ := (abs_nonneg _).trans (h.rsqrt 1 (by norm_num))

theorem axisErr_bounds (h : Setup A c seed pos k ρ) (g : Gen) : 0 ≤ axisErr g k ρ ∧ axisErr g k ρ ≤ 1 / 4 := by
  have hk3 : (2 : ℝ) ^ (k - 25) ≤ 2 ^ (-3 : ℤ) := zpow_le_zpow_right₀ (by norm_num) (by have := h.k22; omega)
  have hp := two_zpow_pos (k - 25)
  have := h.rho; have := h.rho0
  unfold axisErr
  norm_num at hk3
  constructor
  · split <;> positivity
  · split <;> norm_num <;> linarith

theorem jitter_const (pos : Pos) : 0 < (tab pos).kJitter ∧ (tab pos).kJitter ≤ 0.437016 := by
  unfold tab; split
  · norm_num [Cellular.tab2]
  · split <;> norm_num [Cellular.tab3, Cellular.tab4]

/-- The displacement of every feature point along every axis. -/
theorem disp (h : Setup A c seed pos k ρ) (hh : I32) :
    ∀ o ∈ (tab pos).off hh, |o * mul (mul (fl (tab pos).kJitter) (c.gridJitter seed pos)) (A.invSqrt (normSq ((tab pos).off hh))) -
        (tab pos).kJitter * c.gridJitter seed pos * o / √(normSq ((tab pos).off hh))| ≤ ρ / 2 + 1.1 / 2 ^ 24 ∧
      |(tab pos).kJitter * c.gridJitter seed pos * o / √(normSq ((tab pos).off hh))| ≤ 0.4371 := by
  obtain ⟨ns, hns, hsum⟩ := off_half pos h.two h.four hh
  have hpos : 0 < normSq ((tab pos).off hh) := by rw [← Cellular.magSq_eq]; exact Cellular.off_pos pos hh
  obtain ⟨M, hM⟩ : ∃ M, M = normSq ((tab pos).off hh) := ⟨_, rfl⟩
  have hM4 : 1 / 4 ≤ M := by
    rw [hM, hns, normSq_half]
    rw [hns, normSq_half] at hpos
    have : (0 : ℝ) < ((ns.map (fun n => n ^ 2)).sum : ℤ) := by linarith
    have : 0 < (ns.map (fun n => n ^ 2)).sum := by exact_mod_cast this
    have : (1 : ℝ) ≤ ((ns.map (fun n => n ^ 2)).sum : ℤ) := by exact_mod_cast this
    linarith
  have hMle : M ≤ 2 ^ 22 := by
    rw [hM, hns, normSq_half]
    have : (((ns.map (fun n => n ^ 2)).sum : ℤ) : ℝ) ≤ 2 ^ 24 := by exact_mod_cast hsum
    linarith
  rw [← hM]
  intro o ho
  have hoM : |o| ≤ √M := by
    rw [← Real.sqrt_sq_eq_abs]
    apply Real.sqrt_le_sqrt
    rw [hM]
    unfold normSq
    exact List.single_le_sum (by intro y hy; obtain ⟨z, _, rfl⟩ := List.mem_map.mp hy; positivity) _ (List.mem_map.mpr ⟨o, ho, rfl⟩)
  have ho12 : |o| ≤ 2 ^ 12 := by
    refine hoM.trans ?_
    rw [show (2 : ℝ) ^ 12 = √((2 ^ 12) ^ 2) from (Real.sqrt_sq (by norm_num)).symm]
    exact Real.sqrt_le_sqrt (by norm_num at hMle ⊢; linarith)
  have hq : 0 < √M := Real.sqrt_pos.mpr (by linarith)
  have hk := jitter_const pos
  obtain ⟨K, hK⟩ : ∃ K, K = (tab pos).kJitter := ⟨_, rfl⟩
  obtain ⟨G, hG⟩ : ∃ G, G = c.gridJitter seed pos := ⟨_, rfl⟩
  have hG1 : |G| ≤ 1 := by rw [hG]; exact h.jitter
  rw [← hK] at hk ⊢
  rw [← hG]
  have hKf : |fl K - K| ≤ 2 ^ (-26 : ℤ) := by
    have := fl_err_le (k := -1) (by norm_num) (x := K) (by rw [abs_of_pos hk.1]; norm_num at hk ⊢; linarith)
    norm_num at this ⊢; exact this
  have hKf2 : 0 ≤ fl K ∧ fl K ≤ 1 / 2 := fl_mem rep_zero rep_12 ⟨hk.1.le, by norm_num at hk ⊢; linarith⟩
  have hKG : |fl K * G| ≤ 1 / 2 := by
    rw [abs_mul, abs_of_nonneg hKf2.1]
    calc fl K * |G| ≤ 1 / 2 * 1 := mul_le_mul hKf2.2 hG1 (abs_nonneg _) (by norm_num)
      _ = _ := by norm_num
  have hj : |mul (fl K) G| ≤ 1 / 2 := by
    rw [abs_le] at hKG ⊢
    exact fl_mem (rep_neg rep_12) rep_12 hKG
  have hjJ : |mul (fl K) G - K * G| ≤ 2 ^ (-25 : ℤ) := by
    have e1 := fl_err_le (k := -1) (by norm_num) (x := fl K * G) (by norm_num at hKG ⊢; exact hKG)
    have e2 : |fl K * G - K * G| ≤ 2 ^ (-26 : ℤ) := by
      rw [← sub_mul, abs_mul]
      calc |fl K - K| * |G| ≤ 2 ^ (-26 : ℤ) * 1 := mul_le_mul hKf hG1 (abs_nonneg _) (by positivity)
        _ = _ := by ring
    have : mul (fl K) G - K * G = (fl (fl K * G) - fl K * G) + (fl K * G - K * G) := by unfold mul; ring
    rw [this]; refine (abs_add_le _ _).trans ?_
    norm_num at e1 e2 ⊢; linarith
  have hrs := h.rsqrt M (le_trans (by norm_num) hM4)
  refine ⟨prod_err hj hjJ (by linarith) hrs h.rho hoM ho12, ?_⟩
  rw [abs_div, abs_of_pos hq, div_le_iff₀ hq, abs_mul, abs_mul, abs_of_pos hk.1]
  have h1 : K * |G| ≤ 0.437016 * 1 := mul_le_mul hk.2 hG1 (abs_nonneg _) (by norm_num)
  calc K * |G| * |o| ≤ 0.4371 * √M := mul_le_mul (by norm_num at h1 ⊢; linarith) hoM (abs_nonneg _) (by norm_num)
    _ = _ := rfl

/-- No distance in the neighbourhood exceeds this. -/
def metricMax : DistFn → ℝ
  | .euclidean => 4
  | _ => 24

theorem metric_bounds (fn : DistFn) {δ : ℝ} {a t : List ℝ} (h : Close δ a t) (hl : t.length ≤ 4) : 0 ≤ metric fn t ∧ metric fn t ≤ metricMax fn := by
  have hn : (t.length : ℝ) ≤ 4 := by exact_mod_cast hl
  have hsum : ∀ (q : ℝ → ℝ) (B : ℝ), (∀ u, |u| ≤ 2 → 0 ≤ q u ∧ q u ≤ B) → 0 ≤ (t.map q).sum ∧ (t.map q).sum ≤ t.length * B := by
    intro q B hq
    clear hl hn
    induction h with
    | nil => simp
    | @cons x y l l' h _ ih =>
      have := hq y h.2
      rw [List.map_cons, List.sum_cons, List.length_cons]; push_cast
      constructor <;> linarith
  have sq := hsum (fun u => u ^ 2) 4 (fun u hu => ⟨sq_nonneg u, by have := abs_le.mp hu; nlinarith⟩)
  have ab := hsum (fun u => |u|) 2 (fun u hu => ⟨abs_nonneg u, hu⟩)
  have hy := hsum (fun u => u ^ 2 + |u|) 6 (fun u hu => ⟨by positivity, by have := abs_le.mp hu; nlinarith⟩)
  cases fn <;> simp only [metric, metricMax]
  · refine ⟨Real.sqrt_nonneg _, ?_⟩
    rw [Real.sqrt_le_left (by norm_num)]
    linarith
  · constructor <;> linarith
  · constructor <;> linarith
  · constructor <;> linarith
  · have : ∀ l l' : List ℝ, Close δ l l' → 0 ≤ (l'.map fun u => |u|).foldr max 0 ∧ (l'.map fun u => |u|).foldr max 0 ≤ 2 := by
      intro l l' h
      induction h with
      | nil => simp
      | @cons x y l l' h _ ih =>
        rw [List.map_cons, List.foldr_cons]
        exact ⟨le_max_of_le_right ih.1, max_le h.2 ih.2⟩
    have := this a t h
    constructor <;> linarith
  · norm_num

/-- Entry of the scan for a lattice cell: hash right, distance within the error, feature point (for CellularLookup) within the error. -/
def Matches (g : Gen) (doSqrt : Bool) (c : Cfg) (seed : I32) (pos : Pos) (k : ℤ) (ρ : ℝ) (p : ℝ × I32 × List ℝ) (m : List ℤ) : Prop :=
  |measured c.fn doSqrt p.1 - trueDistance c seed pos (scaledPos c pos) m| ≤ metricErr c.fn pos.length (axisErr g k ρ) ∧
  p.2.1 = cubeHash c seed m ∧ m.length = pos.length ∧
  (0 ≤ trueDistance c seed pos (scaledPos c pos) m ∧ trueDistance c seed pos (scaledPos c pos) m ≤ metricMax c.fn) ∧
  (g = .lookup → List.Forall₂ (fun a b => |a - b| ≤ axisErr .lookup k ρ) p.2.2 (feature c seed pos m))

theorem scan_matches (h : Setup A c seed pos k ρ) (g : Gen) (doSqrt : Bool) :
    List.Forall₂ (Matches g doSqrt c seed pos k ρ) (scanned A g doSqrt c seed pos) (cubes (scaledPos c pos)) := by
  obtain ⟨xs, hxs⟩ : ∃ xs, xs = scaledPos c pos := ⟨_, rfl⟩
  have hlen : xs.length = pos.length := by rw [hxs]; simp [F32.scalePositions]
  have hnear := h.near
  rw [← hxs] at hnear
  have hv := visited_rel g h.k22 xs hnear primes (by rw [hlen]; exact h.four)
  unfold scanned
  simp only []
  rw [show F32.scalePositions (F32.frequency c.scale) pos = xs from hxs.symm, show cubes (scaledPos c pos) = cubes xs by rw [hxs]]
  rw [List.forall₂_map_left_iff]
  unfold visited
  refine hv.imp ?_
  intro cell m hr
  have hl := rel_len hr
  have hash : cellHash (seed + c.seedOffset) cell = cubeHash c seed m := by
    unfold cellHash cubeHash primed; rw [rel_snd hr]
  have hos : off pos.length (cubeHash c seed m) = (tab pos).off (cubeHash c seed m) := off_eq pos _
  have hol : ((tab pos).off (cubeHash c seed m)).length = xs.length := by rw [Cellular.off_length pos _ h.two h.four, hlen]
  have hmag : magSq A.toLevel ((tab pos).off (cubeHash c seed m)) = normSq ((tab pos).off (cubeHash c seed m)) := by
    obtain ⟨ns, hns, hsum⟩ := off_half pos h.two h.four (cubeHash c seed m)
    rw [hns]; exact magSq_exact A.toLevel ns hsum
  have hd := disp h (cubeHash c seed m)
  have hfeat : feature c seed pos m = List.zipWith (fun o c' => Num.fma o ((tab pos).kJitter * c.gridJitter seed pos * (1 / √(normSq ((tab pos).off (cubeHash c seed m))))) c')
      ((tab pos).off (cubeHash c seed m)) (m.map (fun k : ℤ => (k : ℝ))) := by
    unfold feature Cellular.featurePoint
    simp only [Cellular.magSq_eq]
    rfl
  have hax := axisErr_bounds h g
  refine ⟨?_, hash, by rw [hl.1, hlen], ?_, ?_⟩
  · have hcl := rel_close A.toLevel g h.k1 h.k22 h.rho _ xs primes cell m hr hol hnear hd
    rw [← hfeat] at hcl
    simp only [hash, hos, hmag]
    unfold cellDistance
    have hsz : c.sizeActive = false := by unfold Cfg.sizeActive; simp [h.size.1, h.size.2]
    unfold trueDistance
    rw [← hxs]
    have hlt : (List.zipWith (· - ·) (feature c seed pos m) xs).length = pos.length := by
      rw [hfeat]; simp [Cellular.off_length pos _ h.two h.four, hl.1, hlen]
    have hlen2 := close_len hcl
    rw [← hlt]
    rw [hlt] at hlen2
    generalize List.zipWith (· - ·) (feature c seed pos m) xs = T at *
    generalize List.zipWith (fun o (p : ℝ × ℝ) => relative A.toLevel g o (mul (mul (fl (tab pos).kJitter) (c.gridJitter seed pos))
      (A.invSqrt (normSq ((tab pos).off (cubeHash c seed m))))) p.1 p.2) ((tab pos).off (cubeHash c seed m)) ((List.map Prod.fst cell).zip xs) = R at *
    cases R with
    | nil => simp at hlen2; have := h.two; omega
    | cons xd rest =>
      simp only [hsz, Bool.false_eq_true, if_false]
      rw [List.length_cons] at hlen2
      have := h.two; have := h.four
      exact calc_err A doSqrt c.fn h.fn _ hax.1 hax.2 hcl (by omega) (by omega)
  · have hcl := rel_close A.toLevel g h.k1 h.k22 h.rho _ xs primes cell m hr hol hnear hd
    rw [← hfeat] at hcl
    unfold trueDistance
    rw [← hxs]
    refine metric_bounds c.fn hcl ?_
    rw [hfeat]; simp [Cellular.off_length pos _ h.two h.four, hl.1, hlen]; exact h.four
  · intro hg
    subst hg
    have := rel_point A.toLevel h.k1 h.k22 h.rho _ xs primes cell m hr hol hnear hd
    simp only [hash, hos, hmag]
    rw [hfeat]; exact this

/-- Specification: the true distances to the feature points of the cells around the sample, nearest first. -/
noncomputable def trueSorted (c : Cfg) (seed : I32) (pos : Pos) : List ℝ :=
  ((cubes (scaledPos c pos)).map (trueDistance c seed pos (scaledPos c pos))).insertionSort (· ≤ ·)

theorem cubes_length (xs : List ℝ) : (cubes xs).length = 3 ^ xs.length := by
  induction xs with
  | nil => rfl
  | cons x xs ih => simp [cubes, ih, pow_succ]; ring

theorem four_lt (h : Setup A c seed pos k ρ) {i : ℕ} (hi : i < 4) : i < (cubes (scaledPos c pos)).length := by
  rw [cubes_length]
  have : (scaledPos c pos).length = pos.length := by simp [F32.scalePositions]
  rw [this]
  calc i < 3 ^ 2 := by omega
    _ ≤ _ := Nat.pow_le_pow_right (by omega) h.two

theorem trueSorted_length : (trueSorted c seed pos).length = (cubes (scaledPos c pos)).length := by
  unfold trueSorted; rw [List.length_insertionSort, List.length_map]

/-- The i-th smallest computed distance is close to the i-th smallest true distance. -/
theorem nth_close (h : Setup A c seed pos k ρ) (g : Gen) (doSqrt : Bool) {F : List ℝ} (hF : F.Perm ((scanned A g doSqrt c seed pos).map fun p => p.1))
    (hFs : F.Pairwise (· ≤ ·)) {i : ℕ} (h1 : i < F.length) (h2 : i < (trueSorted c seed pos).length) :
    |measured c.fn doSqrt F[i] - (trueSorted c seed pos)[i]| ≤ metricErr c.fn pos.length (axisErr g k ρ) := by
  have hm := scan_matches h g doSqrt
  have hlen := hm.length_eq
  have hz : ∀ a ∈ (scanned A g doSqrt c seed pos).zip (cubes (scaledPos c pos)), Matches g doSqrt c seed pos k ρ a.1 a.2 := by
    intro a ha
    exact (List.forall₂_iff_zip.mp hm).2 ha
  have := kth_close ((scanned A g doSqrt c seed pos).zip (cubes (scaledPos c pos))) (fun a => measured c.fn doSqrt a.1.1)
    (fun a => trueDistance c seed pos (scaledPos c pos) a.2) (fun a ha => (hz a ha).1) (F := F.map (measured c.fn doSqrt)) (G := trueSorted c seed pos)
    (by
      refine (hF.map _).trans (List.Perm.of_eq ?_)
      rw [List.map_map]
      conv_lhs => rw [← List.map_fst_zip (l₁ := scanned A g doSqrt c seed pos) (l₂ := cubes (scaledPos c pos)) (by omega)]
      rw [List.map_map]; rfl)
    (List.pairwise_map.mpr (hFs.imp fun hab => measured_mono _ _ hab))
    (by
      unfold trueSorted
      refine (List.perm_insertionSort _ _).trans (List.Perm.of_eq ?_)
      conv_lhs => rw [← List.map_snd_zip (l₁ := scanned A g doSqrt c seed pos) (l₂ := cubes (scaledPos c pos)) (by omega)]
      rw [List.map_map]; rfl)
    (List.pairwise_insertionSort _ _) (i := i) (by simpa using h1) h2
  simpa using this

theorem axisErr_distance : axisErr .distance k ρ = coordErr ρ := by unfold axisErr coordErr; simp
theorem axisErr_value : axisErr .value k ρ = coordErr ρ := by unfold axisErr coordErr; simp
theorem axisErr_lookup : axisErr .lookup k ρ = coordErrLookup k ρ := by unfold axisErr coordErrLookup; simp

/-- The array of CellularDistance is the sorted list of computed distances. -/
theorem distances_sorted (h : Setup A c seed pos k ρ) : ∃ F : List ℝ, F.Perm ((scanned A .distance false c seed pos).map fun p => p.1) ∧ F.Pairwise (· ≤ ·) ∧
    ∀ i < 4, F[i]? = some (distances A c seed pos i) := by
  let pts : List (WithTop ℝ) := (scanned A .distance false c seed pos).map fun p => (p.1 : WithTop ℝ)
  obtain ⟨L, hp, hs, hd⟩ := Cellular.foldl_insertDistance pts [] (fun _ => ⊤) List.Pairwise.nil (by simp)
  rw [List.append_nil] at hp
  have hmem : ∀ x ∈ L, x ≠ ⊤ := by
    intro x hx
    obtain ⟨q, _, rfl⟩ := List.mem_map.mp (hp.mem_iff.mp hx)
    exact WithTop.coe_ne_top
  refine ⟨L.map (fun x => x.untopD 0), ?_, ?_, ?_⟩
  · refine (hp.map _).trans ?_
    simp only [pts, List.map_map]
    exact List.Perm.of_eq (List.map_congr_left fun p _ => rfl)
  · refine List.pairwise_map.mpr (hs.imp_of_mem ?_)
    intro a b ha hb hab
    have na := hmem a ha
    have nb := hmem b hb
    lift a to ℝ using na
    lift b to ℝ using nb
    simpa using hab
  · intro i hi
    have hlen : i < L.length := by
      rw [hp.length_eq]; simp only [pts, List.length_map]
      rw [(scan_matches h .distance false).length_eq]; exact four_lt h hi
    have e : (scanned A .distance false c seed pos).foldl (fun (d : Nat → WithTop ℝ) p => insertDistance d (p.1 : WithTop ℝ)) (fun _ => ⊤) =
        pts.foldl insertDistance (fun _ => ⊤) := by simp only [pts, List.foldl_map]
    unfold distances
    simp only [e, hd i hi, List.getElem?_map, List.getElem?_eq_getElem hlen, List.getD_eq_getElem _ _ hlen]
    rfl

/-- **C70**, CellularDistance, the four nearest: entry `i` of the array is within the stated error of the true `i`-th smallest distance, whatever ties and near-ties there are, and the
array is ascending.  (For the Euclidean metric the array holds squares, whose roots are compared.) -/
theorem C70_distances (h : Setup A c seed pos k ρ) :
    (∀ i < 4, ∃ hi : i < (trueSorted c seed pos).length,
      |measured c.fn false (distances A c seed pos i) - (trueSorted c seed pos)[i]| ≤ metricErr c.fn pos.length (coordErr ρ)) ∧
    ∀ i j, i ≤ j → j < 4 → distances A c seed pos i ≤ distances A c seed pos j := by
  obtain ⟨F, hp, hs, hF⟩ := distances_sorted h
  constructor
  · intro i hi
    have h2 : i < (trueSorted c seed pos).length := by rw [trueSorted_length]; exact four_lt h hi
    obtain ⟨h1, e⟩ := List.getElem?_eq_some_iff.mp (hF i hi)
    refine ⟨h2, ?_⟩
    have := nth_close h .distance false hp hs h1 h2
    rw [e, axisErr_distance] at this
    exact this
  · intro i j hij hj
    obtain ⟨h1, e1⟩ := List.getElem?_eq_some_iff.mp (hF i (by omega))
    obtain ⟨h2, e2⟩ := List.getElem?_eq_some_iff.mp (hF j hj)
    rw [← e1, ← e2]
    rcases Nat.eq_or_lt_of_le hij with rfl | hlt
    · exact le_rfl
    · exact List.pairwise_iff_getElem.mp hs i j h1 h2 hlt

/-- **C70**, CellularValue: the output is the value of a cell around the sample, and the true distance of that cell's feature point is within twice the error of the true `idx`-th
smallest distance: rounding can only swap cells that are nearly equally far.  Whatever the uninitialised array contains. -/
theorem C70_value (h : Setup A c seed pos k ρ) (r : Range ℝ) (idx : Nat) (hidx : idx < 4) (junk : List I32) (hj : junk.length = 4) :
    ∃ m ∈ cubes (scaledPos c pos), ∃ hi : idx < (trueSorted c seed pos).length,
      |trueDistance c seed pos (scaledPos c pos) m - (trueSorted c seed pos)[idx]| ≤ 2 * metricErr c.fn pos.length (coordErr ρ) ∧
      cellularValue A r c idx junk seed pos = F32.scaleOutput A.toLevel r (fl (cubeHash c seed m).toInt) (-valueBounds) valueBounds := by
  let sc := scanned A .value (decide (pos.length ≤ 2)) c seed pos
  let pts := sc.map fun p => (p.1, p.2.1)
  let l := pts.foldl (fun a p => bubble p a) []
  have hperm : l.Perm pts := (Cellular.foldl_bubble_perm pts []).trans (by simp)
  have hsort : l.Pairwise (fun a b => a.1 ≤ b.1) := Cellular.foldl_bubble_sorted pts [] List.Pairwise.nil
  have hlen : idx < l.length := by
    rw [hperm.length_eq]
    simp only [pts, List.length_map, sc]
    rw [(scan_matches h .value _).length_eq]; exact four_lt h hidx
  let f : ℝ → WithTop ℝ := fun x => x
  have hf : StrictMono f := WithTop.coe_strictMono
  let arr0 : List (WithTop ℝ × I32) := (junk.take Cellular.maxDistanceCount).map fun j => (⊤, j)
  have ha : arr0.length = 4 := by simp [arr0, Cellular.maxDistanceCount, hj]
  let pts' : List (WithTop ℝ × I32) := pts.map fun p => (f p.1, p.2)
  have hfold : sc.foldl (fun a p => insertValue idx ((p.1 : WithTop ℝ), p.2.1) a) arr0 = pts'.foldl (fun a p => insertValue idx p a) arr0 := by
    simp only [pts', pts, List.foldl_map]
    rfl
  have htake := Cellular.foldl_insertValue_take idx pts' arr0 (by omega)
  obtain ⟨t', ht'⟩ := Cellular.foldl_bubble_append_top pts' [] arr0 (by intro p hp; obtain ⟨q, _, rfl⟩ := List.mem_map.mp hp; exact WithTop.coe_lt_top _)
    (by simp) (by intro p hp; obtain ⟨q, _, rfl⟩ := List.mem_map.mp hp; rfl)
  have hmap : pts'.foldl (fun a p => bubble p a) [] = l.map fun p => (f p.1, p.2) := by
    have := Cellular.foldl_bubble_map f hf pts []
    simpa using this
  rw [List.nil_append, hmap] at ht'
  rw [ht'] at htake
  have hget : (pts'.foldl (fun a p => insertValue idx p a) arr0)[idx]? = some (f l[idx].1, l[idx].2) := by
    have e := congrArg (fun q => q[idx]?) htake
    simp only [List.getElem?_take, Nat.lt_succ_self, if_true] at e
    rw [e, List.getElem?_append_left (by simpa using hlen), List.getElem?_map, List.getElem?_eq_getElem hlen]
    rfl
  -- the cell the entry came from
  obtain ⟨p, hp, hpe⟩ := List.mem_map.mp (hperm.mem_iff.mp (List.getElem_mem hlen))
  obtain ⟨j, hj1, hj2⟩ := List.mem_iff_getElem.mp hp
  have hm := scan_matches h .value (decide (pos.length ≤ 2))
  have hj3 : j < (cubes (scaledPos c pos)).length := by rw [← hm.length_eq]; exact hj1
  have hmj := List.Forall₂.get hm hj1 hj3
  simp only [List.get_eq_getElem] at hmj
  have hpj : (scanned A .value (decide (pos.length ≤ 2)) c seed pos)[j] = p := hj2
  rw [hpj] at hmj
  have hi : idx < (trueSorted c seed pos).length := by rw [trueSorted_length]; exact four_lt h hidx
  refine ⟨(cubes (scaledPos c pos))[j], List.getElem_mem _, hi, ?_, ?_⟩
  · have hF : (l.map fun q => q.1).Perm ((scanned A .value (decide (pos.length ≤ 2)) c seed pos).map fun p => p.1) := by
      refine (hperm.map _).trans (List.Perm.of_eq ?_)
      simp only [pts, List.map_map]; rfl
    have n := nth_close h .value (decide (pos.length ≤ 2)) hF (List.pairwise_map.mpr hsort) (i := idx) (by simpa using hlen) hi
    rw [List.getElem_map, ← hpe, axisErr_value] at n
    have e1 := hmj.1
    rw [axisErr_value] at e1
    have e1 := abs_le.mp e1
    have n := abs_le.mp n
    rw [abs_le]
    constructor <;> linarith
  · unfold cellularValue
    show F32.scaleOutput _ _ _ _ _ = _
    simp only [List.getD_eq_getElem?_getD]
    have : (scanned A .value (decide (pos.length ≤ 2)) c seed pos).foldl (fun a p => insertValue idx ((p.1 : WithTop ℝ), p.2.1) a) arr0 = _ := hfold
    rw [this, hget]
    simp only [Option.getD_some]
    rw [← hpe, ← hmj.2.1]
    rfl

theorem metricErr_le (fn : DistFn) {n : ℕ} (hn : n ≤ 4) {δ : ℝ} (h0 : 0 ≤ δ) (h1 : δ ≤ 1 / 4) : 0 ≤ metricErr fn n δ ∧ metricErr fn n δ ≤ 8 ∧
    (δ ≤ 1 / 31 → metricErr fn n δ ≤ 0.66) ∧ (δ ≤ 1 / 31 → fn = .euclidean → metricErr fn n δ ≤ 0.066) := by
  have hn' : (n : ℝ) ≤ 4 := by exact_mod_cast hn
  have hn0 : (0 : ℝ) ≤ n := by positivity
  have hs : √(n : ℝ) ≤ 2 := by rw [Real.sqrt_le_left (by norm_num)]; linarith
  have hs0 := Real.sqrt_nonneg (n : ℝ)
  have m0 : ∀ {a b u v : ℝ}, 0 ≤ b → a ≤ u → b ≤ v → 0 ≤ u → a * b ≤ u * v := fun h1 h2 h3 h4 => mul_le_mul h2 h3 h1 h4
  cases fn <;> simp only [metricErr]
  · have := m0 h0 hs h1 (by norm_num)
    refine ⟨by positivity, by norm_num at *; linarith, fun h => ?_, fun h _ => ?_⟩
    · have := m0 h0 hs h (by norm_num); norm_num at *; linarith
    · have := m0 h0 hs h (by norm_num); norm_num at *; linarith
  · have q := m0 (a := 4 + δ) h0 (add_le_add_right h1 4) h1 (by norm_num)
    have := m0 (a := (n : ℝ)) (by positivity) hn' q (by norm_num)
    refine ⟨by positivity, by norm_num at *; linarith, fun h => ?_, fun _ h => by simp at h⟩
    have q := m0 (a := 4 + δ) h0 (add_le_add_right h 4) h (by norm_num)
    have := m0 (a := (n : ℝ)) (by positivity) hn' q (by norm_num)
    norm_num at *; linarith
  · have := m0 (a := (n : ℝ)) (b := δ + 2 ^ (-21 : ℤ)) (by positivity) hn' (add_le_add_left h1 _) (by norm_num)
    refine ⟨by positivity, by norm_num at *; linarith, fun h => ?_, fun _ h => by simp at h⟩
    have := m0 (a := (n : ℝ)) (b := δ + 2 ^ (-21 : ℤ)) (by positivity) hn' (add_le_add_left h _) (by norm_num)
    norm_num at *; linarith
  · have q := m0 (a := 5 + δ) h0 (add_le_add_right h1 5) h1 (by norm_num)
    have := m0 (a := (n : ℝ)) (b := (5 + δ) * δ + 2 ^ (-19 : ℤ)) (by positivity) hn' (add_le_add_left q _) (by norm_num)
    refine ⟨by positivity, by norm_num at *; linarith, fun h => ?_, fun _ h => by simp at h⟩
    have q := m0 (a := 5 + δ) h0 (add_le_add_right h 5) h (by norm_num)
    have := m0 (a := (n : ℝ)) (b := (5 + δ) * δ + 2 ^ (-19 : ℤ)) (by positivity) hn' (add_le_add_left q _) (by norm_num)
    norm_num at *; linarith
  · exact ⟨h0, by linarith, fun h => by norm_num at *; linarith, fun _ h => by simp at h⟩
  · norm_num

/-- **C70**, CellularLookup: the source is evaluated with seed + 1 at a point `p` (in cell units, then scaled back), `p` is within the stated error of the true feature point of a cell
around the sample in every coordinate, and no feature point of those cells is truly nearer by more than twice the error. -/
theorem C70_lookup (h : Setup A c seed pos k ρ) (lookup : Src) (junk : List ℝ) :
    ∃ m ∈ cubes (scaledPos c pos),
      (∀ m' ∈ cubes (scaledPos c pos), trueDistance c seed pos (scaledPos c pos) m ≤
        trueDistance c seed pos (scaledPos c pos) m' + 2 * metricErr c.fn pos.length (coordErrLookup k ρ)) ∧
      ∃ p : List ℝ, List.Forall₂ (fun a b => |a - b| ≤ coordErrLookup k ρ) p (feature c seed pos m) ∧
        cellularLookup A c lookup junk seed pos = lookup (seed + 1) (p.map fun v => mul v c.scale) := by
  have hm := scan_matches h .lookup false
  have hax := axisErr_bounds h .lookup
  have hE := metricErr_le c.fn h.four hax.1 hax.2
  have hall : ∀ p ∈ scanned A .lookup false c seed pos, ∃ m ∈ cubes (scaledPos c pos), Matches .lookup false c seed pos k ρ p m := by
    intro p hp
    obtain ⟨j, hj1, hj2⟩ := List.mem_iff_getElem.mp hp
    have hj3 : j < (cubes (scaledPos c pos)).length := by rw [← hm.length_eq]; exact hj1
    have := List.Forall₂.get hm hj1 hj3
    simp only [List.get_eq_getElem, hj2] at this
    exact ⟨_, List.getElem_mem hj3, this⟩
  have hfin : ∀ p ∈ scanned A .lookup false c seed pos, p.1 < Cellular.fltMax := by
    intro p hp
    obtain ⟨m, _, h1, _, _, h2, _⟩ := hall p hp
    have hM : metricMax c.fn ≤ 24 := by unfold metricMax; split <;> norm_num
    have h1 := abs_le.mp h1
    have hle : measured c.fn false p.1 ≤ 32 := by linarith [hE.2.1, h2.2]
    have : p.1 ≤ 32 ^ 2 := by
      unfold measured at hle
      split at hle
      · rwa [Real.sqrt_le_left (by norm_num)] at hle
      · norm_num; linarith
    unfold Cellular.fltMax
    exact lt_of_le_of_lt this (by norm_num)
  let pts := (scanned A .lookup false c seed pos).map fun p => (p.1, p.2.2)
  obtain ⟨q, hq, he, hmin⟩ := Cellular.foldl_insertLookup pts (Cellular.fltMax, junk)
  have hmin' : ∀ p ∈ scanned A .lookup false c seed pos, q.1 ≤ p.1 := fun p hp =>
    hmin (p.1, p.2.2) (by simp only [List.mem_cons]; right; exact List.mem_map_of_mem (f := fun p => (p.1, p.2.2)) hp)
  obtain ⟨p0, hp0⟩ : ∃ p0, p0 ∈ scanned A .lookup false c seed pos := by
    have : 0 < (scanned A .lookup false c seed pos).length := by rw [hm.length_eq]; exact four_lt h (by omega)
    exact ⟨_, List.getElem_mem this⟩
  have hlt : q.1 < Cellular.fltMax := lt_of_le_of_lt (hmin' p0 hp0) (hfin p0 hp0)
  have hmem : q ∈ pts := by
    rcases List.mem_cons.mp hq with h | h
    · rw [h] at hlt; exact absurd hlt (lt_irrefl _)
    · exact h
  obtain ⟨w, hw, hwq⟩ := List.mem_map.mp hmem
  obtain ⟨m, hmc, hmw⟩ := hall w hw
  rw [← axisErr_lookup]
  refine ⟨m, hmc, ?_, w.2.2, hmw.2.2.2.2 rfl, ?_⟩
  · intro m' hm'
    obtain ⟨j, hj1, hj2⟩ := List.mem_iff_getElem.mp hm'
    have hj3 : j < (scanned A .lookup false c seed pos).length := by rw [hm.length_eq]; exact hj1
    have hj := List.Forall₂.get hm hj3 hj1
    simp only [List.get_eq_getElem, hj2] at hj
    have a := hmin' _ (List.getElem_mem hj3)
    rw [← hwq] at a
    have a := measured_mono c.fn false a
    have b := abs_le.mp hj.1
    have d := abs_le.mp hmw.1
    simp only at a
    linarith
  · unfold cellularLookup
    have : (scanned A .lookup false c seed pos).foldl (fun b p => Cellular.insertLookup b (p.1, p.2.2)) (Cellular.fltMax, junk) = q := by
      rw [← he]; simp only [pts, List.foldl_map]
    simp only [this, ← hwq, sub_neg_eq_add]

/-- Specification: error of one of the two distances that the return types combine: for the Euclidean metric the root of the square is taken with the processor's inverse root. -/
noncomputable def returnErr (fn : DistFn) (n : ℕ) (ρ : ℝ) : ℝ :=
  metricErr fn n (coordErr ρ) + (if fn = .euclidean then 5 * ρ + 2 ^ (-22 : ℤ) else 0)

theorem root_err (h : Setup A c seed pos k ρ) {d t E : ℝ} (hd : |√d - t| ≤ E) (ht : E + 2 ^ (-63 : ℤ) ≤ t) (ht4 : t ≤ 4) (hE : E ≤ 0.066) :
    d ≠ 0 ∧ |mul d (A.invSqrt d) - t| ≤ E + (5 * ρ + 2 ^ (-22 : ℤ)) := by
  have hd' := abs_le.mp hd
  have hs : (2 : ℝ) ^ (-63 : ℤ) ≤ √d := by linarith
  have hs5 : √d ≤ 5 := by norm_num at hE; linarith
  have hp : 0 < √d := lt_of_lt_of_le (by positivity) hs
  have hd0 : 0 < d := Real.sqrt_pos.mp hp
  have h126 : (2 : ℝ) ^ (-126 : ℤ) ≤ d := by
    rw [← Real.sq_sqrt hd0.le, show (2 : ℝ) ^ (-126 : ℤ) = (2 ^ (-63 : ℤ)) ^ 2 by rw [← zpow_natCast, ← zpow_mul]; norm_num]
    exact pow_le_pow_left₀ (by positivity) hs 2
  have hr := h.rsqrt d h126
  have hx : |d * A.invSqrt d - √d| ≤ 5 * ρ := by
    have e : d * A.invSqrt d - √d = √d * (A.invSqrt d * √d - 1) := by
      nth_rewrite 1 [← Real.mul_self_sqrt hd0.le]; ring
    rw [e, abs_mul, abs_of_pos hp]
    exact mul_le_mul hs5 hr (abs_nonneg _) (by norm_num)
  have hρ := h.rho
  have hb : |d * A.invSqrt d| ≤ 2 ^ (3 : ℤ) := by
    have := abs_le.mp hx
    rw [abs_le]; norm_num; constructor <;> linarith
  have hf := abs_le.mp (fl_err_le (k := 3) (by norm_num) hb)
  have hx := abs_le.mp hx
  refine ⟨hd0.ne', ?_⟩
  unfold mul
  norm_num at hf ⊢
  rw [abs_le]; constructor <;> linarith

theorem maxDist_err {K : ℝ} (hk0 : 0 < K) (hk1 : K ≤ 0.437016) :
    |mul (add 1 (fl K)) (add 1 (fl K)) - (1 + K) ^ 2| ≤ 2 ^ (-18 : ℤ) ∧
    |mul (mul (add 1 (fl K)) (add 1 (fl K))) 2 - (1 + K) ^ 2 * 2| ≤ 2 ^ (-18 : ℤ) ∧
    |mul (mul (add 1 (fl K)) (add 1 (fl K))) (mul (add 1 (fl K)) (add 1 (fl K))) - (1 + K) ^ 2 * (1 + K) ^ 2| ≤ 2 ^ (-18 : ℤ) := by
  have x1 : |fl K - K| ≤ 2 ^ (-26 : ℤ) := by
    have := fl_err_le (k := -1) (by norm_num) (x := K) (by rw [abs_of_pos hk0]; norm_num at hk1 ⊢; linarith)
    norm_num at this ⊢; exact this
  have x1' := abs_le.mp x1
  norm_num at x1' hk1
  have x2 : |add 1 (fl K) - (1 + fl K)| ≤ 2 ^ (-24 : ℤ) := by
    have := fl_err_le (k := 1) (by norm_num) (x := 1 + fl K) (by rw [abs_le]; norm_num; constructor <;> linarith)
    norm_num at this ⊢; exact this
  have x2' := abs_le.mp x2
  norm_num at x2'
  obtain ⟨D, hD⟩ : ∃ D, D = add 1 (fl K) := ⟨_, rfl⟩
  rw [← hD] at x2' ⊢
  have hD1 : |D - (1 + K)| ≤ 0.8 / 2 ^ 23 := by rw [abs_le]; norm_num; constructor <;> linarith
  have hD1' := abs_le.mp hD1
  norm_num at hD1'
  have hDl : 0 ≤ D := by linarith
  have hDu : D ≤ 1.44 := by norm_num; linarith
  have x3 : |mul D D - D * D| ≤ 2 ^ (-23 : ℤ) := by
    have hb : D * D ≤ 1.44 * 1.44 := mul_le_mul hDu hDu hDl (by norm_num)
    have := fl_err_le (k := 2) (by norm_num) (x := D * D) (by rw [abs_of_nonneg (mul_nonneg hDl hDl)]; norm_num at hb ⊢; linarith)
    norm_num at this ⊢; exact this
  have hDD : |D * D - (1 + K) ^ 2| ≤ 2.5 / 2 ^ 23 := by
    have : D * D - (1 + K) ^ 2 = (D - (1 + K)) * (D + (1 + K)) := by ring
    rw [this, abs_mul]
    have h2 : |D + (1 + K)| ≤ 2.9 := by rw [abs_le]; norm_num; constructor <;> linarith
    calc |D - (1 + K)| * |D + (1 + K)| ≤ 0.8 / 2 ^ 23 * 2.9 := mul_le_mul hD1 h2 (abs_nonneg _) (by norm_num)
      _ ≤ _ := by norm_num
  have hP0 : 0 ≤ (1 + K) ^ 2 := by positivity
  have hP1 : (1 + K) ^ 2 ≤ 2.07 := by
    have : (1 + K) ^ 2 ≤ 1.437016 ^ 2 := pow_le_pow_left₀ (by linarith) (by norm_num; linarith) 2
    norm_num at this ⊢; linarith
  obtain ⟨P, hP⟩ : ∃ P, P = (1 + K) ^ 2 := ⟨_, rfl⟩
  obtain ⟨M, hM⟩ : ∃ M, M = mul D D := ⟨_, rfl⟩
  rw [← hM] at x3 ⊢
  rw [← hP] at hDD hP0 hP1 ⊢
  have x3' := abs_le.mp x3
  have hDD' := abs_le.mp hDD
  norm_num at x3' hDD' hP1
  have hM1 : |M - P| ≤ 3.5 / 2 ^ 23 := by rw [abs_le]; norm_num; constructor <;> linarith
  have hM1' := abs_le.mp hM1
  norm_num at hM1'
  have hMa : |M| ≤ 2.08 := by rw [abs_le]; norm_num; constructor <;> linarith
  refine ⟨by norm_num at hM1 ⊢; linarith, ?_, ?_⟩
  · have := fl_err_le (k := 3) (by norm_num) (x := M * 2) (by rw [abs_mul]; norm_num at hMa ⊢; linarith)
    have := abs_le.mp this
    unfold mul
    norm_num at this ⊢
    rw [abs_le]; constructor <;> linarith
  · have hb : |M| * |M| ≤ 2.08 * 2.08 := mul_le_mul hMa hMa (abs_nonneg _) (by norm_num)
    have := fl_err_le (k := 3) (by norm_num) (x := M * M) (by rw [abs_mul]; norm_num at hb ⊢; linarith)
    have t1 := abs_le.mp this
    have hMM : |M * M - P * P| ≤ 1.85 / 2 ^ 20 := by
      have e : M * M - P * P = (M - P) * (M + P) := by ring
      rw [e, abs_mul]
      have h2 : |M + P| ≤ 4.15 := by rw [abs_le]; norm_num; constructor <;> linarith
      calc |M - P| * |M + P| ≤ 3.5 / 2 ^ 23 * 4.15 := mul_le_mul hM1 h2 (abs_nonneg _) (by norm_num)
        _ ≤ _ := by norm_num
    have t2 := abs_le.mp hMM
    unfold mul
    norm_num at t1 t2 ⊢
    rw [abs_le]; constructor <;> linarith

/-- **C70**, CellularDistance, the result: the two selected distances `a`, `b` are within `returnErr` of the true ones, the result is their combination up to relative rounding (for the quotient also the
error of the processor's reciprocal), scaled to the output range from `[0, M]`.  Euclidean metric: for distinct indices and a sample that is not (nearly) on a feature point that is selected; quotient: the divisor not nearly 0. -/
theorem C70_return (h : Setup A c seed pos k ρ) (r : Range ℝ) (rt : ReturnType) (i0 i1 : Nat) (h0 : i0 < 4) (h1 : i1 < 4)
    (hrec : ∀ b : ℝ, 2 ^ (-126 : ℤ) ≤ b → |A.reciprocal b * b - 1| ≤ ρ)
    (heuc : c.fn = .euclidean → i0 ≠ i1 ∧ ∀ t ∈ (trueSorted c seed pos)[i0]?.toList ++ (trueSorted c seed pos)[i1]?.toList, metricErr c.fn pos.length (coordErr ρ) + 2 ^ (-63 : ℤ) ≤ t)
    (hdiv : rt = .index0Div1 → ∀ t ∈ (trueSorted c seed pos)[i1]?, returnErr c.fn pos.length ρ + 2 ^ (-126 : ℤ) ≤ t) :
    ∃ t0 t1 a b v M, (trueSorted c seed pos)[i0]? = some t0 ∧ (trueSorted c seed pos)[i1]? = some t1 ∧
      |a - t0| ≤ returnErr c.fn pos.length ρ ∧ |b - t1| ≤ returnErr c.fn pos.length ρ ∧
      |v - Cellular.combine a b rt| ≤ |Cellular.combine a b rt| * ((if rt = .index0Div1 then ρ else 0) + 2 ^ (-23 : ℤ)) + 2 ^ (-150 : ℤ) ∧
      |M - Cellular.combineMax ((1 + (tab pos).kJitter) ^ 2) rt| ≤ 2 ^ (-18 : ℤ) ∧
      cellularDistance A r c rt i0 i1 seed pos = some (F32.scaleOutput A.toLevel r v 0 M) := by
  obtain ⟨hd, -⟩ := C70_distances h
  obtain ⟨l0, e0⟩ := hd i0 h0
  obtain ⟨l1, e1⟩ := hd i1 h1
  have g0 : (trueSorted c seed pos)[i0]? = some (trueSorted c seed pos)[i0] := List.getElem?_eq_getElem l0
  have g1 : (trueSorted c seed pos)[i1]? = some (trueSorted c seed pos)[i1] := List.getElem?_eq_getElem l1
  have hmax : ∀ t ∈ trueSorted c seed pos, 0 ≤ t ∧ t ≤ metricMax c.fn := by
    intro t ht
    unfold trueSorted at ht
    rw [List.mem_insertionSort] at ht
    obtain ⟨m, hm, rfl⟩ := List.mem_map.mp ht
    obtain ⟨j, hj1, hj2⟩ := List.mem_iff_getElem.mp hm
    have hs := scan_matches h .distance false
    have hj3 : j < (scanned A .distance false c seed pos).length := by rw [hs.length_eq]; exact hj1
    have hj := List.Forall₂.get hs hj3 hj1
    simp only [List.get_eq_getElem, hj2] at hj
    exact hj.2.2.2.1
  have b0 := hmax _ (List.getElem_mem l0)
  have b1 := hmax _ (List.getElem_mem l1)
  have hρ := h.rho
  have hρ0 := h.rho0
  have hc0 : 0 ≤ coordErr ρ := by unfold coordErr; positivity
  have hc1 : coordErr ρ ≤ 1 / 31 := by unfold coordErr; norm_num; linarith
  have hE := metricErr_le c.fn h.four hc0 (by linarith)
  rw [g0, g1] at heuc
  rw [g1] at hdiv
  -- the two distances
  obtain ⟨a, b, ha, hb, hr⟩ : ∃ a b, |a - (trueSorted c seed pos)[i0]| ≤ returnErr c.fn pos.length ρ ∧ |b - (trueSorted c seed pos)[i1]| ≤ returnErr c.fn pos.length ρ ∧
      cellularDistance A r c rt i0 i1 seed pos = (match rt with
        | .index0 => some (F32.scaleOutput A.toLevel r a 0 (mul (add 1 (fl (tab pos).kJitter)) (add 1 (fl (tab pos).kJitter))))
        | .index0Add1 => some (F32.scaleOutput A.toLevel r (add a b) 0 (mul (mul (add 1 (fl (tab pos).kJitter)) (add 1 (fl (tab pos).kJitter))) 2))
        | .index0Sub1 => some (F32.scaleOutput A.toLevel r |sub a b| 0 (mul (add 1 (fl (tab pos).kJitter)) (add 1 (fl (tab pos).kJitter))))
        | .index0Mul1 => some (F32.scaleOutput A.toLevel r (mul a b) 0 (mul (mul (add 1 (fl (tab pos).kJitter)) (add 1 (fl (tab pos).kJitter)))
            (mul (add 1 (fl (tab pos).kJitter)) (add 1 (fl (tab pos).kJitter)))))
        | .index0Div1 => if b = 0 then none else some (F32.scaleOutput A.toLevel r (mul a (A.reciprocal b)) 0 (mul (add 1 (fl (tab pos).kJitter)) (add 1 (fl (tab pos).kJitter))))) := by
    by_cases hfn : c.fn = .euclidean
    · obtain ⟨hne, ht⟩ := heuc hfn
      have hme := hE.2.2.2 hc1 hfn
      simp only [Option.toList_some, forall_eq_or_imp, forall_eq, List.singleton_append, List.mem_cons, List.not_mem_nil, or_false] at ht
      have q0 : |√(distances A c seed pos i0) - (trueSorted c seed pos)[i0]| ≤ metricErr c.fn pos.length (coordErr ρ) := by
        have := e0; rw [measured, if_pos ⟨hfn, rfl⟩] at this; exact this
      have q1 : |√(distances A c seed pos i1) - (trueSorted c seed pos)[i1]| ≤ metricErr c.fn pos.length (coordErr ρ) := by
        have := e1; rw [measured, if_pos ⟨hfn, rfl⟩] at this; exact this
      have m4 : metricMax c.fn = 4 := by rw [hfn]; rfl
      rw [m4] at b0 b1
      obtain ⟨n0, r0⟩ := root_err h q0 ht.1 b0.2 hme
      obtain ⟨n1, r1⟩ := root_err h q1 ht.2 b1.2 hme
      refine ⟨_, _, by rw [returnErr, if_pos hfn]; exact r0, by rw [returnErr, if_pos hfn]; exact r1, ?_⟩
      unfold cellularDistance getReturn
      rw [if_pos hfn]
      simp only [Function.update_apply, if_neg n0, if_neg (Ne.symm hne), if_neg n1, if_neg hne, if_true, pure, Option.bind_eq_bind, Option.bind_some]
      cases rt <;> rfl
    · have q0 : |distances A c seed pos i0 - (trueSorted c seed pos)[i0]| ≤ metricErr c.fn pos.length (coordErr ρ) := by
        have := e0; rw [measured, if_neg (fun q => hfn q.1)] at this; exact this
      have q1 : |distances A c seed pos i1 - (trueSorted c seed pos)[i1]| ≤ metricErr c.fn pos.length (coordErr ρ) := by
        have := e1; rw [measured, if_neg (fun q => hfn q.1)] at this; exact this
      refine ⟨_, _, by rw [returnErr, if_neg hfn, add_zero]; exact q0, by rw [returnErr, if_neg hfn, add_zero]; exact q1, ?_⟩
      unfold cellularDistance getReturn
      rw [if_neg hfn]
      simp only [pure, Option.bind_eq_bind, Option.bind_some]
      cases rt <;> rfl
  -- the maximum
  have hk := jitter_const pos
  obtain ⟨K, hK⟩ : ∃ K, K = (tab pos).kJitter := ⟨_, rfl⟩
  rw [← hK] at hk hr ⊢
  obtain ⟨D, hD⟩ : ∃ D, D = add 1 (fl K) := ⟨_, rfl⟩
  have hDD := maxDist_err hk.1 hk.2
  rw [← hD] at hr hDD
  obtain ⟨M, hM⟩ : ∃ M, M = mul D D := ⟨_, rfl⟩
  obtain ⟨P, hP⟩ : ∃ P, P = (1 + K) ^ 2 := ⟨_, rfl⟩
  rw [← hM, ← hP] at hDD
  rw [← hM] at hr
  rw [← hP]
  obtain ⟨hMs, hM2, hMM⟩ := hDD
  have mix : ∀ x : ℝ, |fl x - x| ≤ |x| * (0 + 2 ^ (-23 : ℤ)) + 2 ^ (-150 : ℤ) := by
    intro x
    have := fl_mix x
    have h1 := abs_nonneg x
    norm_num at this ⊢
    linarith
  refine ⟨(trueSorted c seed pos)[i0], (trueSorted c seed pos)[i1], a, b, ?_⟩
  cases rt with
  | index0 => exact ⟨a, M, g0, g1, ha, hb, by simp only [Cellular.combine, sub_self, abs_zero]; positivity, hMs, hr⟩
  | index0Add1 =>
    refine ⟨add a b, mul M 2, g0, g1, ha, hb, ?_, ?_, hr⟩
    · simpa [Cellular.combine, F32.add] using mix (a + b)
    · exact hM2
  | index0Sub1 =>
    refine ⟨|sub a b|, M, g0, g1, ha, hb, ?_, hMs, hr⟩
    simp only [Cellular.combine, abs_abs]
    have := mix (a - b)
    refine (abs_abs_sub_abs_le _ _).trans ?_
    simpa [F32.sub] using this
  | index0Mul1 =>
    refine ⟨mul a b, mul M M, g0, g1, ha, hb, ?_, ?_, hr⟩
    · simpa [Cellular.combine, F32.mul] using mix (a * b)
    · exact hMM
  | index0Div1 =>
    have hb0 : 2 ^ (-126 : ℤ) ≤ b := by
      have := hdiv rfl _ rfl
      have := abs_le.mp hb
      linarith
    have hbp : 0 < b := lt_of_lt_of_le (by positivity) hb0
    rw [if_neg hbp.ne'] at hr
    refine ⟨mul a (A.reciprocal b), M, g0, g1, ha, hb, ?_, hMs, hr⟩
    have hrb := hrec b hb0
    have e : |a * A.reciprocal b - a / b| ≤ |a / b| * ρ := by
      have : a * A.reciprocal b - a / b = a / b * (A.reciprocal b * b - 1) := by field_simp
      rw [this, abs_mul]
      exact mul_le_mul_of_nonneg_left hrb (abs_nonneg _)
    have f := fl_mix (a * A.reciprocal b)
    have tri : |a * A.reciprocal b| ≤ |a / b| * (1 + ρ) := by
      have := abs_sub_abs_le_abs_sub (a * A.reciprocal b) (a / b)
      linarith
    have : |mul a (A.reciprocal b) - a / b| ≤ |fl (a * A.reciprocal b) - a * A.reciprocal b| + |a * A.reciprocal b - a / b| := by
      unfold mul; exact abs_sub_le _ _ _
    have hab := abs_nonneg (a / b)
    have hab2 : |a / b| * ρ ≤ |a / b| * (1 / 16) := mul_le_mul_of_nonneg_left hρ hab
    simp only [Cellular.combine, if_true]
    generalize |a * A.reciprocal b| = X at *
    generalize |a / b| = Y at *
    have p23 : (2 : ℝ) ^ (-23 : ℤ) = 1 / 8388608 := by norm_num
    rw [p23]
    norm_num only at f
    linarith

/-! ## The hypotheses are met -/

/-- A processor with an exact inverse square root and reciprocal, with or without fused multiply-add. -/
noncomputable def sampleChip (hasFma : Bool) : Chip where
  fused := hasFma
  invSqrt v := 1 / √v
  reciprocal v := 1 / v
  minkowski _ _ _ := 0

theorem sample_scaled (fn : DistFn) (g : ℝ) : scaledPos (Cellular.sampleCfg fn g) [0, 0] = [0, 0] := by
  have : fl (0 : ℝ) = 0 := fl_rep rep_zero
  simp [F32.scalePositions, F32.mul, this]

theorem sample_setup (b : Bool) (fn : DistFn) (hfn : fn ≠ .minkowski) {g : ℝ} (hg : |g| ≤ 1) : Setup (sampleChip b) (Cellular.sampleCfg fn g) 7 [0, 0] 3 0 where
  two := by simp
  four := by simp
  fn := hfn
  size := ⟨rfl, rfl⟩
  jitter := hg
  rsqrt := by
    intro v hv
    have : 0 < √v := Real.sqrt_pos.mpr (lt_of_lt_of_le (by positivity) hv)
    simp only [sampleChip]
    rw [one_div, inv_mul_cancel₀ this.ne']; simp
  rho := by norm_num
  k1 := by norm_num
  k22 := by norm_num
  near := by
    rw [sample_scaled]
    intro x hx
    simp at hx
    subst hx
    norm_num

example : ∃ hi : 2 < (trueSorted (Cellular.sampleCfg .euclidean 1) 7 [0, 0]).length,
    |measured .euclidean false (distances (sampleChip true) (Cellular.sampleCfg .euclidean 1) 7 [0, 0] 2) - (trueSorted (Cellular.sampleCfg .euclidean 1) 7 [0, 0])[2]| ≤
      metricErr .euclidean 2 (coordErr 0) :=
  (C70_distances (sample_setup true .euclidean (by simp) (by simp))).1 2 (by simp)

/-- The bound is meaningful: with an exact inverse square root less than `10^-5`, the cells being 1 apart. -/
example : metricErr .euclidean 2 (coordErr 0) ≤ 10 ^ (-5 : ℤ) := by
  have h : √((2 : ℕ) : ℝ) ≤ 2 := by rw [Real.sqrt_le_left (by norm_num)]; norm_num
  have : √((2 : ℕ) : ℝ) * (5 / 2 ^ 24) ≤ 2 * (5 / 2 ^ 24) := mul_le_mul_of_nonneg_right h (by norm_num)
  simp only [metricErr, coordErr]
  norm_num at this ⊢
  linarith

example : ∃ m ∈ cubes (scaledPos (Cellular.sampleCfg .manhattan 1) [0, 0]),
    cellularValue (sampleChip false) ⟨-1, 2⟩ (Cellular.sampleCfg .manhattan 1) 3 [0, 0, 0, 0] 7 [0, 0] =
      F32.scaleOutput (sampleChip false).toLevel ⟨-1, 2⟩ (fl (cubeHash (Cellular.sampleCfg .manhattan 1) 7 m).toInt) (-valueBounds) valueBounds :=
  let ⟨m, hm, _, _, h⟩ := C70_value (sample_setup false .manhattan (by simp) (by simp)) ⟨-1, 2⟩ 3 (by simp) [0, 0, 0, 0] rfl
  ⟨m, hm, h⟩

example : ∃ m ∈ cubes (scaledPos (Cellular.sampleCfg .euclidean 1) [0, 0]), ∃ p : List ℝ,
    List.Forall₂ (fun a b => |a - b| ≤ coordErrLookup 3 0) p (feature (Cellular.sampleCfg .euclidean 1) 7 [0, 0] m) ∧
      cellularLookup (sampleChip true) (Cellular.sampleCfg .euclidean 1) (fun _ p => p.sum) [] 7 [0, 0] = (p.map fun v => mul v 1).sum :=
  let ⟨m, hm, _, p, h1, h2⟩ := C70_lookup (sample_setup true .euclidean (by simp) (by simp)) (fun _ p => p.sum) []
  ⟨m, hm, p, h1, h2⟩

/-- Without jitter the feature point of the central cell is the sample: the true distances are those of the lattice points around 0. -/
theorem sample_true (fn : DistFn) : trueSorted (Cellular.sampleCfg fn 0) 7 [0, 0] =
    ((cubes [0, 0]).map fun m => metric fn (m.map fun i : ℤ => (i : ℝ))).insertionSort (· ≤ ·) := by
  unfold trueSorted
  rw [sample_scaled]
  congr 1
  apply List.map_congr_left
  intro m hm
  obtain ⟨a, b, rfl⟩ : ∃ a b, m = [a, b] := by
    simp only [cubes, List.mem_flatMap, List.mem_map, List.mem_singleton] at hm
    obtain ⟨a, _, n, ⟨b, _, o, rfl, rfl⟩, rfl⟩ := hm
    exact ⟨a, b, rfl⟩
  unfold trueDistance
  congr 1
  unfold feature Cellular.featurePoint
  have hol := Cellular.off_length [0, 0] (hashPrimesHB (7 + (Cellular.sampleCfg fn 0).seedOffset) (primed ([a, b].map (BitVec.ofInt 32)))) (by simp) (by simp)
  obtain ⟨u, v, huv⟩ := List.length_eq_two.mp hol
  simp only [huv]
  simp [Cellular.sampleCfg, Src.const, Num.fma]

theorem sample_sorted : trueSorted (Cellular.sampleCfg .euclidean 0) 7 [0, 0] = [0, 1, 1, 1, 1, √2, √2, √2, √2] := by
  rw [sample_true]
  have h0 : roundEven 0 = 0 := by have := Num.roundEven_int 0; simpa using this
  have e : (cubes [0, 0]).map (fun m => metric .euclidean (m.map fun i : ℤ => (i : ℝ))) = [√2, 1, √2, 1, 0, 1, √2, 1, √2] := by
    simp [cubes, h0, metric]; norm_num
  rw [e]
  have h2 : (1 : ℝ) ≤ √2 := by rw [Real.le_sqrt (by norm_num) (by norm_num)]; norm_num
  have h3 : (0 : ℝ) ≤ √2 := by linarith
  refine List.Perm.eq_of_pairwise' (r := (· ≤ ·)) (List.pairwise_insertionSort _ _) ?_ ((List.perm_insertionSort _ _).trans ?_)
  · simp [h2, h3]
  · have := (show ([2, 1, 2, 1, 0, 1, 2, 1, 2] : List (Fin 3)).Perm [0, 1, 1, 1, 1, 2, 2, 2, 2] by decide).map (fun i => match i with | 0 => (0 : ℝ) | 1 => 1 | 2 => √2)
    exact this

/-- `C70_return` with the Euclidean metric, quotient of entries 1 and 3 (distance 1 each). -/
example : ∃ t0 t1 a b v M, (trueSorted (Cellular.sampleCfg .euclidean 0) 7 [0, 0])[1]? = some t0 ∧ (trueSorted (Cellular.sampleCfg .euclidean 0) 7 [0, 0])[3]? = some t1 ∧
    |a - t0| ≤ returnErr .euclidean 2 0 ∧ |b - t1| ≤ returnErr .euclidean 2 0 ∧
    |v - Cellular.combine a b .index0Div1| ≤ |Cellular.combine a b .index0Div1| * (0 + 2 ^ (-23 : ℤ)) + 2 ^ (-150 : ℤ) ∧
    |M - Cellular.combineMax ((1 + (tab [0, 0]).kJitter) ^ 2) .index0Div1| ≤ 2 ^ (-18 : ℤ) ∧
    cellularDistance (sampleChip true) ⟨-1, 2⟩ (Cellular.sampleCfg .euclidean 0) .index0Div1 1 3 7 [0, 0] = some (F32.scaleOutput (sampleChip true).toLevel ⟨-1, 2⟩ v 0 M) := by
  have hc : coordErr 0 ≤ 1 / 31 := by unfold coordErr; norm_num
  have hE : metricErr .euclidean 2 (coordErr 0) ≤ 0.066 :=
    (metricErr_le .euclidean (n := 2) (by norm_num) (by unfold coordErr; norm_num) (by linarith)).2.2.2 hc rfl
  norm_num at hE
  exact C70_return (sample_setup true .euclidean (by simp) (g := 0) (by simp)) ⟨-1, 2⟩ .index0Div1 1 3 (by simp) (by simp)
    (by intro b hb; have : 0 < b := lt_of_lt_of_le (by positivity) hb; simp [sampleChip, this.ne'])
    (by
      intro _
      refine ⟨by simp, ?_⟩
      rw [sample_sorted]
      simp only [List.getElem?_cons_succ, List.getElem?_cons_zero, Option.toList_some, List.singleton_append, List.mem_cons, List.not_mem_nil, or_false, or_self, forall_eq]
      show metricErr .euclidean 2 (coordErr 0) + _ ≤ _
      norm_num; linarith)
    (by
      intro _
      rw [sample_sorted]
      simp only [List.getElem?_cons_succ, List.getElem?_cons_zero, Option.mem_def, Option.some.injEq, forall_eq']
      show metricErr .euclidean 2 (coordErr 0) + (if DistFn.euclidean = DistFn.euclidean then _ else _) + _ ≤ _
      rw [if_pos rfl]
      norm_num; linarith)

end FastNoise.FloatCellular
