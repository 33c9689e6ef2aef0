import Verif.CellularGeo
import Verif.BasicProps
import Verif.BitsLemmas
/-! # C27 (k nearest cells) and C43 (the neighbourhood contains the nearest cell) -/
namespace FastNoise.Cellular
open FastNoise.Hash FastNoise.Num FastNoise.Basic

/-! ## C27 -/

/-- **C27**, index setters clamp to the array, and accept every valid index unchanged. -/
theorem C27_index_clamped (v : Int) : 0 ≤ setIndex v ∧ setIndex v < 4 ∧ (0 ≤ v → v < 4 → setIndex v = v) := by
  unfold setIndex maxDistanceCount
  refine ⟨?_, ?_, ?_⟩ <;> omega

/-- **C27**, CellularValue: the output is the value of the `idx`-th nearest cell: there is an ordering of the visited cells by ascending distance
whose entry number `idx` supplies the hash.  Whatever the uninitialised array contains. -/
theorem C27_value (relaxed : Bool) (r : Range ℝ) (c : Cfg) (idx : Nat) (hidx : idx < 4) (junk : List I32) (hj : junk.length = 4)
    (seed : I32) (pos : Pos) (h2 : 2 ≤ pos.length) (h4 : pos.length ≤ 4) :
    ∃ l : List (ℝ × I32),
      l.Perm ((scanned relaxed (decide (pos.length ≤ 2)) c seed pos).map fun p => (p.1, p.2.1)) ∧
      l.Pairwise (fun a b => a.1 ≤ b.1) ∧
      ∃ h : idx < l.length, cellularValue relaxed r c idx junk seed pos = r.scaleOutput (l[idx].2.toInt) (-valueBounds) valueBounds := by
  let pts := (scanned relaxed (decide (pos.length ≤ 2)) c seed pos).map fun p => (p.1, p.2.1)
  let l := pts.foldl (fun a p => bubble p a) []
  have hlen : idx < l.length := by
    have : l.length = 3 ^ pos.length := by
      rw [(foldl_bubble_perm pts []).length_eq]
      simp only [List.append_nil, pts, List.length_map]
      exact scanned_length _ _ _ _ _ h4
    rw [this]
    calc idx < 3 ^ 2 := by omega
      _ ≤ _ := Nat.pow_le_pow_right (by omega) h2
  refine ⟨l, (foldl_bubble_perm pts []).trans (by simp [pts]), foldl_bubble_sorted pts [] List.Pairwise.nil, hlen, ?_⟩
  let f : ℝ → WithTop ℝ := fun x => x
  have hf : StrictMono f := WithTop.coe_strictMono
  let arr0 : List (WithTop ℝ × I32) := (junk.take maxDistanceCount).map fun j => (⊤, j)
  have ha : arr0.length = 4 := by simp [arr0, maxDistanceCount, hj]
  let pts' : List (WithTop ℝ × I32) := pts.map fun p => (f p.1, p.2)
  have hfold : (scanned relaxed (decide (pos.length ≤ 2)) c seed pos).foldl
      (fun a p => insertValue idx ((p.1 : WithTop ℝ), p.2.1) a) arr0 = pts'.foldl (fun a p => insertValue idx p a) arr0 := by
    simp only [pts', pts, List.foldl_map]
    rfl
  have htake := foldl_insertValue_take idx pts' arr0 (by omega)
  obtain ⟨t', ht'⟩ := foldl_bubble_append_top pts' [] arr0 (by intro p hp; obtain ⟨q, _, rfl⟩ := List.mem_map.mp hp; exact WithTop.coe_lt_top _)
    (by simp) (by intro p hp; obtain ⟨q, _, rfl⟩ := List.mem_map.mp hp; rfl)
  have hmap : pts'.foldl (fun a p => bubble p a) [] = l.map fun p => (f p.1, p.2) := by
    have := foldl_bubble_map f hf pts []
    simpa using this
  rw [List.nil_append, hmap] at ht'
  rw [ht'] at htake
  have hget : (pts'.foldl (fun a p => insertValue idx p a) arr0)[idx]? = some (f l[idx].1, l[idx].2) := by
    have e := congrArg (fun q => q[idx]?) htake
    simp only [List.getElem?_take, Nat.lt_succ_self, if_true] at e
    rw [e, List.getElem?_append_left (by simpa using hlen), List.getElem?_map, List.getElem?_eq_getElem hlen]
    rfl
  unfold cellularValue
  show r.scaleOutput _ _ _ = _
  simp only [List.getD_eq_getElem?_getD]
  rw [hfold, hget]
  rfl

theorem getReturn_congr (r : Range ℝ) (fn : DistFn) (rt : ReturnType) (i0 i1 : Nat) (d d' : Nat → ℝ) (m : ℝ) (h0 : d i0 = d' i0) (h1 : d i1 = d' i1) :
    getReturn r fn rt i0 i1 d m = getReturn r fn rt i0 i1 d' m := by
  unfold getReturn
  by_cases hf : fn = .euclidean
  · by_cases hne : i1 = i0
    · subst hne
      simp only [hf, if_true, Function.update_self, h0]
      cases rt <;> simp [Function.update_self]
    · simp only [hf, if_true, Function.update_of_ne hne, Function.update_of_ne (Ne.symm hne), Function.update_self, h0, h1, pure_bind]
  · cases rt <;> simp [hf, h0, h1]

/-- **C27**, CellularDistance: the distance array holds the four smallest distances in ascending order; the result combines entries `i0` and
`i1`. -/
theorem C27_distance (relaxed : Bool) (r : Range ℝ) (c : Cfg) (rt : ReturnType) (i0 i1 : Nat) (h0 : i0 < 4) (h1 : i1 < 4)
    (seed : I32) (pos : Pos) (h2 : 2 ≤ pos.length) (h4 : pos.length ≤ 4) :
    ∃ l : List ℝ, l.Perm ((scanned relaxed false c seed pos).map fun p => p.1) ∧ l.Pairwise (· ≤ ·) ∧ i0 < l.length ∧ i1 < l.length ∧
      cellularDistance relaxed r c rt i0 i1 seed pos = getReturn r c.fn rt i0 i1 (fun i => l.getD i 0) (1 + (tab pos).kJitter) := by
  let pts : List (WithTop ℝ) := (scanned relaxed false c seed pos).map fun p => (p.1 : WithTop ℝ)
  obtain ⟨L, hp, hs, hd⟩ := foldl_insertDistance pts [] (fun _ => ⊤) List.Pairwise.nil (by simp)
  rw [List.append_nil] at hp
  have hmem : ∀ x ∈ L, x ≠ ⊤ := by
    intro x hx
    obtain ⟨q, _, rfl⟩ := List.mem_map.mp (hp.mem_iff.mp hx)
    exact WithTop.coe_ne_top
  let l := L.map (fun x => x.untopD 0)
  have hlen : ∀ i < 4, i < l.length := by
    intro i hi
    have : l.length = 3 ^ pos.length := by
      simp only [l, List.length_map]
      rw [hp.length_eq]
      simp only [pts, List.length_map]
      exact scanned_length _ _ _ _ _ h4
    rw [this]
    calc i < 3 ^ 2 := by omega
      _ ≤ _ := Nat.pow_le_pow_right (by omega) h2
  refine ⟨l, ?_, ?_, hlen _ h0, hlen _ h1, ?_⟩
  · refine (hp.map _).trans ?_
    simp only [pts, List.map_map]
    exact List.Perm.of_eq (List.map_congr_left fun p _ => rfl)
  · refine List.pairwise_map.mpr (hs.imp_of_mem ?_)
    intro a b ha hb hab
    have na := hmem a ha
    have nb := hmem b hb
    lift a to ℝ using na
    lift b to ℝ using nb
    simpa using hab
  · have hv : ∀ i < 4, ((scanned relaxed false c seed pos).foldl (fun (d : Nat → WithTop ℝ) p => insertDistance d (p.1 : WithTop ℝ)) (fun _ => ⊤) i).untopD 0
        = l.getD i 0 := by
      intro i hi
      have e : (scanned relaxed false c seed pos).foldl (fun (d : Nat → WithTop ℝ) p => insertDistance d (p.1 : WithTop ℝ)) (fun _ => ⊤) =
          pts.foldl insertDistance (fun _ => ⊤) := by simp only [pts, List.foldl_map]
      rw [e, hd i hi]
      have hi' := hlen i hi
      have hi'' : i < L.length := by simpa [l] using hi'
      rw [List.getD_eq_getElem _ _ hi', List.getD_eq_getElem _ _ hi'']
      simp [l]
    exact getReturn_congr r c.fn rt i0 i1 _ _ _ (hv _ h0) (hv _ h1)

/-- Specification: how the return types combine the two distances, and the native maximum they are scaled by (`m` = squared maximal distance). -/
noncomputable def combine (a b : ℝ) : ReturnType → ℝ
  | .index0 => a
  | .index0Add1 => a + b
  | .index0Sub1 => |a - b|
  | .index0Mul1 => a * b
  | .index0Div1 => a / b
@[inherit_doc combine] noncomputable def combineMax (m : ℝ) : ReturnType → ℝ
  | .index0 => m
  | .index0Add1 => m * 2
  | .index0Sub1 => m
  | .index0Mul1 => m * m
  | .index0Div1 => m

/-- **C27**, CellularDistance, combination.  For every metric but Euclidean, and for Euclidean with different indices and both distances positive, the
result is the combination of the `i0`-th and `i1`-th smallest distances.  Missing (hence partial): Euclidean with equal indices or a zero distance, where
the code takes the root twice or returns NaN, see the two theorems below. -/
theorem C27_distance_combined_partial (relaxed : Bool) (r : Range ℝ) (c : Cfg) (rt : ReturnType) (i0 i1 : Nat) (h0 : i0 < 4) (h1 : i1 < 4)
    (seed : I32) (pos : Pos) (h2 : 2 ≤ pos.length) (h4 : pos.length ≤ 4) :
    ∃ l : List ℝ, l.Perm ((scanned relaxed false c seed pos).map fun p => p.1) ∧ l.Pairwise (· ≤ ·) ∧
      ∃ a b, l[i0]? = some a ∧ l[i1]? = some b ∧
        (c.fn ≠ .euclidean → ¬ (rt = .index0Div1 ∧ b = 0) →
          cellularDistance relaxed r c rt i0 i1 seed pos =
            some (r.scaleOutput (combine a b rt) 0 (combineMax ((1 + (tab pos).kJitter) ^ 2) rt))) ∧
        (c.fn = .euclidean → i0 ≠ i1 → 0 < a → 0 < b →
          cellularDistance relaxed r c rt i0 i1 seed pos =
            some (r.scaleOutput (combine √a √b rt) 0 (combineMax ((1 + (tab pos).kJitter) ^ 2) rt))) := by
  obtain ⟨l, hp, hs, l0, l1, e⟩ := C27_distance relaxed r c rt i0 i1 h0 h1 seed pos h2 h4
  refine ⟨l, hp, hs, l[i0], l[i1], List.getElem?_eq_getElem l0, List.getElem?_eq_getElem l1, ?_, ?_⟩
  · intro hfn hz
    rw [e]
    unfold getReturn
    rw [if_neg hfn]
    simp only [List.getD_eq_getElem _ _ l0, List.getD_eq_getElem _ _ l1, pure, Option.bind_eq_bind, Option.bind_some]
    cases rt <;> simp only [combine, combineMax, pow_two]
    rw [if_neg (fun h => hz ⟨rfl, h⟩), mul_one_div]
  · intro hfn hne ha hb
    rw [e]
    have sq : ∀ d : ℝ, 0 < d → timesInvSqrt d = some √d := by
      intro d hd
      have : d * (1 / √d) = √d := by rw [mul_one_div, Real.div_sqrt]
      rw [timesInvSqrt, if_neg hd.ne', this]
    unfold getReturn
    rw [if_pos hfn]
    simp only [Function.update_apply, List.getD_eq_getElem _ _ l0, List.getD_eq_getElem _ _ l1, if_neg (Ne.symm hne), sq _ ha, sq _ hb, pure, Option.bind_eq_bind,
      Option.bind_some, if_true, if_neg hne]
    have hb' : √l[i1] ≠ 0 := (Real.sqrt_pos.mpr hb).ne'
    cases rt <;> simp only [combine, combineMax, pow_two]
    rw [if_neg hb', mul_one_div]

/-- Deviation: with the Euclidean metric and equal indices the root is taken twice. -/
theorem C27_equal_indices_root_twice (relaxed : Bool) (r : Range ℝ) (c : Cfg) (i : Nat) (hi : i < 4) (hfn : c.fn = .euclidean)
    (seed : I32) (pos : Pos) (h2 : 2 ≤ pos.length) (h4 : pos.length ≤ 4) :
    ∃ l : List ℝ, l.Perm ((scanned relaxed false c seed pos).map fun p => p.1) ∧ l.Pairwise (· ≤ ·) ∧
      ∃ a, l[i]? = some a ∧ (0 < a →
        cellularDistance relaxed r c .index0 i i seed pos = some (r.scaleOutput √√a 0 ((1 + (tab pos).kJitter) ^ 2))) := by
  obtain ⟨l, hp, hs, l0, _, e⟩ := C27_distance relaxed r c .index0 i i hi hi seed pos h2 h4
  refine ⟨l, hp, hs, l[i], List.getElem?_eq_getElem l0, ?_⟩
  intro ha
  have sq : ∀ d : ℝ, 0 < d → timesInvSqrt d = some √d := by
    intro d hd
    have : d * (1 / √d) = √d := by rw [mul_one_div, Real.div_sqrt]
    rw [timesInvSqrt, if_neg hd.ne', this]
  rw [e]
  unfold getReturn
  rw [if_pos hfn]
  simp only [Function.update_apply, List.getD_eq_getElem _ _ l0, sq _ ha, sq _ (Real.sqrt_pos.mpr ha), pure, Option.bind_eq_bind, Option.bind_some, if_true, pow_two]

/-- Deviation: with the Euclidean metric a sample exactly on a feature point yields NaN (`0 * InvSqrt( 0 )`) when it is one of the selected distances. -/
theorem C27_zero_distance_nan (relaxed : Bool) (r : Range ℝ) (c : Cfg) (rt : ReturnType) (i0 i1 : Nat) (h0 : i0 < 4) (h1 : i1 < 4) (hfn : c.fn = .euclidean)
    (seed : I32) (pos : Pos) (h2 : 2 ≤ pos.length) (h4 : pos.length ≤ 4) :
    ∃ l : List ℝ, l.Perm ((scanned relaxed false c seed pos).map fun p => p.1) ∧ l.Pairwise (· ≤ ·) ∧
      (l[i0]? = some 0 → cellularDistance relaxed r c rt i0 i1 seed pos = none) := by
  obtain ⟨l, hp, hs, l0, _, e⟩ := C27_distance relaxed r c rt i0 i1 h0 h1 seed pos h2 h4
  refine ⟨l, hp, hs, ?_⟩
  intro hz
  have hz : l[i0] = 0 := by rw [List.getElem?_eq_getElem l0] at hz; simpa using hz
  rw [e]
  unfold getReturn
  rw [if_pos hfn]
  have h0' : timesInvSqrt (l.getD i0 0) = none := by rw [List.getD_eq_getElem _ _ l0, hz]; simp [timesInvSqrt]
  simp only [h0']
  rfl

/-- **C27**, CellularLookup: the source is evaluated with seed + 1 at the (unscaled) feature point of a nearest visited cell. -/
theorem C27_lookup (relaxed : Bool) (c : Cfg) (lookup : Src) (junk : List ℝ) (seed : I32) (pos : Pos)
    (hfin : ∃ p ∈ scanned relaxed false c seed pos, p.1 < fltMax) :
    ∃ q ∈ scanned relaxed false c seed pos, (∀ p ∈ scanned relaxed false c seed pos, q.1 ≤ p.1) ∧
      cellularLookup relaxed c lookup junk seed pos = lookup (seed + 1) (q.2.2.map (· * c.scale)) := by
  let pts := (scanned relaxed false c seed pos).map fun p => (p.1, p.2.2)
  obtain ⟨q, hq, he, hmin⟩ := foldl_insertLookup pts (fltMax, junk)
  obtain ⟨p0, hp0, hfin⟩ := hfin
  have hlt : q.1 < fltMax := lt_of_le_of_lt (hmin (p0.1, p0.2.2) (by simp only [List.mem_cons]; right; exact List.mem_map_of_mem (f := fun p => (p.1, p.2.2)) hp0)) hfin
  have hmem : q ∈ pts := by
    rcases List.mem_cons.mp hq with h | h
    · rw [h] at hlt; exact absurd hlt (lt_irrefl _)
    · exact h
  obtain ⟨w, hw, hwq⟩ := List.mem_map.mp hmem
  refine ⟨w, hw, ?_, ?_⟩
  · intro p hp
    have := hmin (p.1, p.2.2) (by simp only [List.mem_cons]; right; exact List.mem_map_of_mem (f := fun p => (p.1, p.2.2)) hp)
    rw [← hwq] at this
    exact this
  · unfold cellularLookup
    have : (scanned relaxed false c seed pos).foldl (fun b p => insertLookup b (p.1, p.2.2)) (fltMax, junk) = q := by
      rw [← he]; simp only [pts, List.foldl_map]
    simp only [this, ← hwq, sub_neg_eq_add]

/-! ## C43 -/

/-- Specification: the feature point of the lattice cell with integer coordinates `m`, for every cell of the infinite lattice: displaced from the
centre `m` by the jitter in the direction given by the cell's hash. -/
noncomputable def feature (c : Cfg) (seed : I32) (pos : Pos) (m : List ℤ) : List ℝ :=
  let h := hashPrimesHB (seed + c.seedOffset) (primed (m.map (BitVec.ofInt 32)))
  featurePoint (tab pos) ((tab pos).kJitter * c.gridJitter seed pos) h (m.map (fun k : ℤ => (k : ℝ)))

/-- Specification: squared Euclidean distance. -/
noncomputable def distSq (a b : List ℝ) : ℝ := normSq (List.zipWith (· - ·) a b)

/-- The displacement of every feature point has length exactly |jitter constant × grid jitter|. -/
theorem C43_displacement (c : Cfg) (seed : I32) (pos : Pos) (h2 : 2 ≤ pos.length) (h4 : pos.length ≤ 4) (m : List ℤ) (hm : m.length = pos.length) :
    distSq (feature c seed pos m) (m.map (fun k : ℤ => (k : ℝ))) = ((tab pos).kJitter * c.gridJitter seed pos) ^ 2 := by
  unfold feature distSq
  simp only []
  generalize hashPrimesHB (seed + c.seedOffset) (primed (m.map (BitVec.ofInt 32))) = h
  rw [featurePoint_eq, ← offset_norm (tab pos) _ h (off_pos pos h)]
  congr 1
  apply List.ext_getElem
  · simp [off_length pos h h2 h4, hm]
  · intro i h1 h2; simp

/-- Specification: bits `lo .. lo + width - 1` of a hash, as a number. -/
def hashBits (h : I32) (lo width : Nat) : Nat := h.toNat / 2 ^ lo % 2 ^ width

/-- Specification: the direction a cell's hash selects: one bit field per axis, centred on zero.  2D: bits 0-10 and 21-31; 3D: 0-9, 11-20, 22-31;
4D: the four bytes. -/
noncomputable def direction (n : Nat) (h : I32) : List ℝ :=
  let fields : List (Nat × Nat) := match n with
    | 2 => [(0, 11), (21, 11)]
    | 3 => [(0, 10), (11, 10), (22, 10)]
    | _ => [(0, 8), (8, 8), (16, 8), (24, 8)]
  fields.map fun f => (hashBits h f.1 f.2 : ℝ) - (2 ^ f.2 - 1) / 2

theorem off_eq (pos : Pos) (h2 : 2 ≤ pos.length) (h4 : pos.length ≤ 4) (h : I32) : (tab pos).off h = direction pos.length h := by
  have a1 : (h &&& 0x7ff).toInt = ((h.toNat % 2 ^ 11 : ℕ) : ℤ) := field_low h 11 (by omega)
  have a2 : (h &&& 0x3ff).toInt = ((h.toNat % 2 ^ 10 : ℕ) : ℤ) := field_low h 10 (by omega)
  have a3 : (h &&& 0xff).toInt = ((h.toNat % 2 ^ 8 : ℕ) : ℤ) := field_low h 8 (by omega)
  have b1 : (h.sshiftRight 11 &&& 0x3ff).toInt = ((h.toNat / 2 ^ 11 % 2 ^ 10 : ℕ) : ℤ) := field_sar h 11 10 (by omega) (by omega)
  have b2 : (h.sshiftRight 8 &&& 0xff).toInt = ((h.toNat / 2 ^ 8 % 2 ^ 8 : ℕ) : ℤ) := field_sar h 8 8 (by omega) (by omega)
  have b3 : (h.sshiftRight 16 &&& 0xff).toInt = ((h.toNat / 2 ^ 16 % 2 ^ 8 : ℕ) : ℤ) := field_sar h 16 8 (by omega) (by omega)
  have c1 : (h >>> 21).toInt = ((h.toNat / 2 ^ 21 % 2 ^ 11 : ℕ) : ℤ) := field_top h 21 11 (by omega) (by omega)
  have c2 : (h >>> 22).toInt = ((h.toNat / 2 ^ 22 % 2 ^ 10 : ℕ) : ℤ) := field_top h 22 10 (by omega) (by omega)
  have c3 : (h >>> 24).toInt = ((h.toNat / 2 ^ 24 % 2 ^ 8 : ℕ) : ℤ) := field_top h 24 8 (by omega) (by omega)
  unfold tab
  rcases (by omega : pos.length = 2 ∨ pos.length = 3 ∨ pos.length = 4) with e | e | e <;>
    simp only [e, tab2, tab3, tab4, direction, hashBits, List.map_cons, List.map_nil, a1, a2, a3, b1, b2, b3, c1, c2, c3, Int.cast_natCast,
      pow_zero, Nat.div_one, Nat.reduceLeDiff, le_refl, if_true, if_false, Nat.reduceEqDiff] <;> norm_num

/-- Specification: the distance of a feature point from its cell's centre at grid jitter 1. -/
noncomputable def jitterRadius (n : Nat) : ℝ := match n with
  | 2 => 0.437016
  | 3 => 0.396144
  | _ => 0.366025

/-- **C43**, where the feature points are: the feature point of lattice cell `m` is `m` plus the vector of length `jitterRadius * grid jitter` in the
direction its hash selects, which is never the zero vector. -/
theorem C43_feature (c : Cfg) (seed : I32) (pos : Pos) (h2 : 2 ≤ pos.length) (h4 : pos.length ≤ 4) (m : List ℤ) :
    let u := direction pos.length (hashPrimesHB (seed + c.seedOffset) (primed (m.map (BitVec.ofInt 32))))
    0 < normSq u ∧
      feature c seed pos m = List.zipWith (fun (k : ℤ) d => (k : ℝ) + jitterRadius pos.length * c.gridJitter seed pos * d / √(normSq u)) m u := by
  intro u
  have hu : u = (tab pos).off (hashPrimesHB (seed + c.seedOffset) (primed (m.map (BitVec.ofInt 32)))) := (off_eq pos h2 h4 _).symm
  refine ⟨by rw [hu, ← magSq_eq]; exact off_pos _ _, ?_⟩
  have hj : (tab pos).kJitter = jitterRadius pos.length := by
    unfold tab
    rcases (by omega : pos.length = 2 ∨ pos.length = 3 ∨ pos.length = 4) with e | e | e <;> simp [e, tab2, tab3, tab4, jitterRadius]
  unfold feature
  simp only [featurePoint_eq]
  rw [← hu, magSq_eq, hj]
  apply List.ext_getElem
  · simp
  · intro i h1 h2
    simp only [List.getElem_zipWith, List.getElem_map]
    ring

/-- Specification: the part of the hash that sizes a cell, as a fraction between 0 and 1. -/
noncomputable def sizeFraction (n : Nat) (h : I32) : ℝ := match n with
  | 2 => (hashBits h 11 10 : ℝ) / (2 ^ 10 - 1)
  | 3 => (hashBits h 0 16 : ℝ) / (2 ^ 16 - 1)
  | _ => (hashBits h 0 20 : ℝ) / (2 ^ 20 - 1)

/-- **C43**, size jitter: it multiplies each scanned distance by `1 + size jitter * fraction`, with a fraction in [0, 1] depending on the cell's hash
alone; the feature points and hashes do not change. -/
theorem C43_size_jitter (relaxed doSqrt : Bool) (c : Cfg) (seed : I32) (pos : Pos) (h2 : 2 ≤ pos.length) (h4 : pos.length ≤ 4) :
    scanned relaxed doSqrt c seed pos = (scanned relaxed doSqrt { c with sizeIsNode := false, sizeConst := 0 } seed pos).map
      (fun p => (p.1 * (1 + (if c.sizeIsNode then c.sizeNode seed pos else c.sizeConst) * sizeFraction pos.length p.2.1), p.2)) ∧
    ∀ h, 0 ≤ sizeFraction pos.length h ∧ sizeFraction pos.length h ≤ 1 := by
  have key : ∀ h, ((((tab pos).sizeBits h).toInt : ℝ)) / (tab pos).sizeMax = sizeFraction pos.length h := by
    intro h
    have a1 : (h.sshiftRight 11 &&& 0x3ff).toInt = ((h.toNat / 2 ^ 11 % 2 ^ 10 : ℕ) : ℤ) := field_sar h 11 10 (by omega) (by omega)
    have a2 : (h &&& 0xffff).toInt = ((h.toNat % 2 ^ 16 : ℕ) : ℤ) := field_low h 16 (by omega)
    have a3 : (h &&& 0xfffff).toInt = ((h.toNat % 2 ^ 20 : ℕ) : ℤ) := field_low h 20 (by omega)
    unfold tab
    rcases (by omega : pos.length = 2 ∨ pos.length = 3 ∨ pos.length = 4) with e | e | e <;>
    simp only [e, tab2, tab3, tab4, sizeFraction, hashBits, a1, a2, a3, Int.cast_natCast,
      pow_zero, Nat.div_one, Nat.reduceLeDiff, le_refl, if_true, if_false, Nat.reduceEqDiff] <;> norm_num
  constructor
  · unfold scanned
    simp only [List.map_map]
    apply List.map_congr_left
    intro cell _
    simp only [Function.comp, Prod.mk.injEq, and_true]
    unfold cellDistance
    have hoff : ({ c with sizeIsNode := false, sizeConst := 0 } : Cfg).sizeActive = false := by simp [Cfg.sizeActive]
    simp only [hoff, Bool.false_eq_true, if_false]
    cases List.zipWith (fun x1 x2 => x1 - x2)
        (featurePoint (tab pos) ((tab pos).kJitter * c.gridJitter seed pos) (cellHash (seed + c.seedOffset) cell) (List.map Prod.fst cell))
        (scalePositions (frequency c.scale) pos) with
    | nil => simp
    | cons xd rest =>
      simp only []
      rw [← key]
      unfold Cfg.sizeActive Cfg.sizeSrc fnma
      cases hn : c.sizeIsNode with
      | true => simp; left; ring
      | false =>
        by_cases hz : c.sizeConst = 0
        · simp [hz]
        · simp [hz, Src.const]; left; ring
  · intro h
    unfold sizeFraction
    have hb : ∀ lo w : Nat, (0 : ℝ) ≤ hashBits h lo w ∧ (hashBits h lo w : ℝ) ≤ 2 ^ w - 1 := by
      intro lo w
      refine ⟨Nat.cast_nonneg _, ?_⟩
      have : hashBits h lo w + 1 ≤ 2 ^ w := Nat.mod_lt _ (Nat.two_pow_pos w)
      have : ((hashBits h lo w + 1 : ℕ) : ℝ) ≤ ((2 ^ w : ℕ) : ℝ) := by exact_mod_cast this
      push_cast at this; linarith
    split
    all_goals
      refine ⟨div_nonneg (hb _ _).1 (by norm_num), (div_le_one (by norm_num)).mpr (hb _ _).2⟩

/-- Non-vacuity: the direction of the hash 0x12345678 in two dimensions. -/
example : direction 2 0x12345678#32 = [1656 - 1023.5, 145 - 1023.5] := by
  simp [direction, hashBits]; norm_num

theorem scanned_mem (relaxed doSqrt : Bool) (c : Cfg) (seed : I32) (pos : Pos) (h4 : pos.length ≤ 4)
    (m : List ℤ) (hm : m.length = pos.length)
    (hmem : cellOf m ∈ visited (scalePositions (frequency c.scale) pos)) :
    ∃ p ∈ scanned relaxed doSqrt c seed pos, p.2.2 = feature c seed pos m ∧
      p.2.1 = hashPrimesHB (seed + c.seedOffset) (primed (m.map (BitVec.ofInt 32))) ∧
      p.1 = cellDistance relaxed doSqrt c (tab pos) seed (c.sizeSrc seed pos * (-1 / (tab pos).sizeMax)) (scalePositions (frequency c.scale) pos) p.2.1 p.2.2 := by
  refine ⟨_, List.mem_map_of_mem hmem, ?_, ?_, rfl⟩
  · simp only [feature, cellHash, cellOf_snd, cellOf_fst m (by omega)]
  · simp only [cellHash, cellOf_snd]

theorem cellDistance_sq (relaxed : Bool) (c : Cfg) (t : Tab) (seed : I32) (sj : ℝ) (scaled : Pos) (h : I32) (p : List ℝ)
    (hfn : c.fn = .euclidean ∨ c.fn = .euclideanSquared) (hs : c.sizeIsNode = false ∧ c.sizeConst = 0) :
    cellDistance relaxed false c t seed sj scaled h p = distSq p scaled := by
  unfold cellDistance distSq
  cases hz : List.zipWith (· - ·) p scaled with
  | nil => simp
  | cons x r =>
    simp only [Cfg.sizeActive, hs.1, hs.2, ne_eq, not_true_eq_false, decide_false, Bool.or_self, Bool.false_eq_true, if_false]
    rcases hfn with e | e <;> rw [e] <;> simp only [calcDistance, Bool.false_eq_true, if_false, sumSq_eq] <;> rfl

/-- **C43**, core: if the jitter radius `J` satisfies `J √n + 2 J² ≤ 1`, then for a Euclidean metric without size jitter, no feature point of the whole
infinite lattice is nearer than the nearest visited one. -/
theorem C43_nearest_visited (relaxed : Bool) (c : Cfg) (seed : I32) (pos : Pos) (h2 : 2 ≤ pos.length) (h4 : pos.length ≤ 4)
    (hfn : c.fn = .euclidean ∨ c.fn = .euclideanSquared) (hs : c.sizeIsNode = false ∧ c.sizeConst = 0)
    (hr : ∀ x ∈ scalePositions (frequency c.scale) pos, CellRange x)
    (J : ℝ) (hJ : J = |(tab pos).kJitter * c.gridJitter seed pos|) (hJn : J * √pos.length + 2 * J ^ 2 ≤ 1) (m : List ℤ) (hm : m.length = pos.length) :
    ∃ p ∈ scanned relaxed false c seed pos, p.1 ≤ distSq (feature c seed pos m) (scalePositions (frequency c.scale) pos) := by
  obtain ⟨scaled, hsc⟩ : ∃ s, scalePositions (frequency c.scale) pos = s := ⟨_, rfl⟩
  have hsl : scaled.length = pos.length := by rw [← hsc]; simp [scalePositions]
  -- displacement of a feature point relative to the sample
  have rel : ∀ k : List ℤ, k.length = pos.length → ∃ o : List ℝ, o.length = pos.length ∧ normSq o = J ^ 2 ∧
      distSq (feature c seed pos k) scaled = normSq (List.zipWith (· + ·) (List.zipWith (fun (k : ℤ) x => (k : ℝ) - x) k scaled) o) := by
    intro k hk
    refine ⟨((tab pos).off (hashPrimesHB (seed + c.seedOffset) (primed (k.map (BitVec.ofInt 32))))).map
        (· * ((tab pos).kJitter * c.gridJitter seed pos * (1 / √(magSq ((tab pos).off (hashPrimesHB (seed + c.seedOffset) (primed (k.map (BitVec.ofInt 32))))))))),
      ?_, ?_, ?_⟩
    · simp [off_length pos _ h2 h4]
    · rw [offset_norm _ _ _ (off_pos pos _), hJ, sq_abs]
    · unfold distSq feature
      simp only []
      rw [featurePoint_eq]
      congr 1
      apply List.ext_getElem
      · simp [off_length pos _ h2 h4, hk, hsl]
      · intro i h1 h2; simp; ring
  have hJ0 : 0 ≤ J := by rw [hJ]; exact abs_nonneg _
  have hsJ : √(J ^ 2) = J := Real.sqrt_sq hJ0
  by_cases hnear : ∀ i (h : i < m.length), |m[i] - roundEven (scaled[i]'(by omega))| ≤ 1
  · obtain ⟨p, hp, h1, _, h3⟩ := scanned_mem relaxed false c seed pos h4 m hm
      (cellOf_mem_visited _ m (by rw [hsc]; omega) (by rw [hsc]; omega) hr (by simpa only [hsc] using hnear))
    refine ⟨p, hp, ?_⟩
    rw [h3, cellDistance_sq _ _ _ _ _ _ _ _ hfn hs, h1]
  · -- the own cell is at least as near
    push Not at hnear
    obtain ⟨i, hi, hfar⟩ := hnear
    let own : List ℤ := scaled.map roundEven
    have hown : own.length = pos.length := by simp [own, hsl]
    obtain ⟨p, hp, h1, _, h3⟩ := scanned_mem relaxed false c seed pos h4 own hown
      (cellOf_mem_visited _ own (by rw [hsc]; omega) (by rw [hsc]; omega) hr (by intro j hj; simp [own, hsc]))
    refine ⟨p, hp, ?_⟩
    rw [h3, cellDistance_sq _ _ _ _ _ _ _ _ hfn hs, h1, hsc]
    let s : List ℝ := scaled.map (fun x => x - roundEven x)
    have hsabs : ∀ x ∈ s, |x| ≤ 1 / 2 := by
      intro x hx
      obtain ⟨y, _, rfl⟩ := List.mem_map.mp hx
      exact abs_sub_roundEven y
    obtain ⟨o1, l1, n1, e1⟩ := rel own hown
    obtain ⟨o2, l2, n2, e2⟩ := rel m hm
    have hc1 : normSq (List.zipWith (fun (k : ℤ) x => (k : ℝ) - x) own scaled) = normSq s := by
      have : List.zipWith (fun (k : ℤ) x => (k : ℝ) - x) own scaled = s.map (· * (-1)) := by
        apply List.ext_getElem
        · simp [own, s]
        · intro j h1 h2; simp [own, s]
      rw [this, normSq_smul]; norm_num
    have hc2 : normSq s + 2 ≤ normSq (List.zipWith (fun (k : ℤ) x => (k : ℝ) - x) m scaled) := by
      let d : List ℤ := List.zipWith (· - ·) m own
      have : List.zipWith (fun (k : ℤ) x => (k : ℝ) - x) m scaled = List.zipWith (fun (k : ℤ) x => (k : ℝ) - x) d s := by
        apply List.ext_getElem
        · simp [d, own, s]
        · intro j h1 h2; simp [d, own, s]
      rw [this]
      refine far_cell s d (by simp [d, own, s]; omega) hsabs ⟨i, by simp [d, own]; omega, ?_⟩
      simp only [d, own, List.getElem_zipWith, List.getElem_map]
      omega
    have rad := radius pos.length J (normSq s) _ hJ0 hJn (normSq_nonneg s)
      (by have := normSq_le_quarter s hsabs; simpa [s, hsl] using this) hc2
    rw [e1, e2]
    have u1 := (normSq_add_le (List.zipWith (fun (k : ℤ) x => (k : ℝ) - x) own scaled) o1 (by simp [own, l1, hsl])).1
    have u2 := (normSq_add_le (List.zipWith (fun (k : ℤ) x => (k : ℝ) - x) m scaled) o2 (by simp [l2, hsl, hm])).2
    rw [n1, hsJ, hc1] at u1
    rw [n2, hsJ] at u2
    refine u1.trans (le_trans ?_ u2)
    have := Real.sqrt_nonneg (normSq s)
    nlinarith

/-- The constants: in 2D and 4D every grid jitter in [-1, 1] satisfies the radius condition ... -/
theorem C43_constants_2D_4D (pos : Pos) (hd : pos.length = 2 ∨ pos.length = 4) (g : ℝ) (hg : |g| ≤ 1) :
    |(tab pos).kJitter * g| * √pos.length + 2 * |(tab pos).kJitter * g| ^ 2 ≤ 1 := by
  have s2 : √(2 : ℝ) ≤ 1.41421357 := by rw [Real.sqrt_le_left (by norm_num)]; norm_num
  have s4 : √(4 : ℝ) = 2 := by rw [show (4 : ℝ) = 2 ^ 2 by norm_num]; exact Real.sqrt_sq (by norm_num)
  have g0 := abs_nonneg g
  rcases hd with h | h
  · have : (tab pos).kJitter = 0.437016 := by simp [tab, h, tab2]
    rw [this, h, abs_mul, abs_of_pos (by norm_num : (0 : ℝ) < 0.437016)]
    have h1 : 0.437016 * |g| ≤ 0.437016 := by linarith
    have h0 : 0 ≤ 0.437016 * |g| := by positivity
    push_cast
    nlinarith [Real.sqrt_nonneg 2]
  · have : (tab pos).kJitter = 0.366025 := by simp [tab, h, tab4]
    rw [this, h, abs_mul, abs_of_pos (by norm_num : (0 : ℝ) < 0.366025)]
    have h1 : 0.366025 * |g| ≤ 0.366025 := by linarith
    have h0 : 0 ≤ 0.366025 * |g| := by positivity
    push_cast
    rw [s4]
    nlinarith

/-- ... in 3D every grid jitter up to 0.99999; the constant is rounded up, so 1 itself just misses the condition. -/
theorem C43_constants_3D (pos : Pos) (hd : pos.length = 3) (g : ℝ) (hg : |g| ≤ 0.99999) :
    |(tab pos).kJitter * g| * √pos.length + 2 * |(tab pos).kJitter * g| ^ 2 ≤ 1 ∧
    1 < (tab pos).kJitter * √pos.length + 2 * (tab pos).kJitter ^ 2 := by
  have s3 : √(3 : ℝ) ≤ 1.7320509 := by rw [Real.sqrt_le_left (by norm_num)]; norm_num
  have s3' : (1.7320508 : ℝ) ≤ √3 := Real.le_sqrt_of_sq_le (by norm_num)
  have g0 := abs_nonneg g
  have hk : (tab pos).kJitter = 0.396144 := by simp [tab, hd, tab3]
  rw [hk, hd, abs_mul, abs_of_pos (by norm_num : (0 : ℝ) < 0.396144)]
  push_cast
  constructor
  · have h1 : 0.396144 * |g| ≤ 0.396144 * 0.99999 := by linarith
    have h0 : 0 ≤ 0.396144 * |g| := by positivity
    nlinarith [Real.sqrt_nonneg 3]
  · nlinarith

/-- The feature point of the sample's own cell is never further than distance 2. -/
theorem own_distance_le (c : Cfg) (seed : I32) (pos : Pos) (h2 : 2 ≤ pos.length) (h4 : pos.length ≤ 4)
    (hJn : |(tab pos).kJitter * c.gridJitter seed pos| * √pos.length + 2 * |(tab pos).kJitter * c.gridJitter seed pos| ^ 2 ≤ 1) :
    distSq (feature c seed pos ((scalePositions (frequency c.scale) pos).map roundEven)) (scalePositions (frequency c.scale) pos) ≤ 4 := by
  obtain ⟨scaled, hsc⟩ : ∃ s, scalePositions (frequency c.scale) pos = s := ⟨_, rfl⟩
  have hsl : scaled.length = pos.length := by rw [← hsc]; simp [scalePositions]
  rw [hsc]
  obtain ⟨J, hJ⟩ : ∃ J, |(tab pos).kJitter * c.gridJitter seed pos| = J := ⟨_, rfl⟩
  rw [hJ] at hJn
  have hJ0 : 0 ≤ J := by rw [← hJ]; exact abs_nonneg _
  have hd := C43_displacement c seed pos h2 h4 (scaled.map roundEven) (by simp [hsl])
  rw [← sq_abs, hJ] at hd
  let a : List ℝ := List.zipWith (· - ·) (feature c seed pos (scaled.map roundEven)) ((scaled.map roundEven).map (fun k : ℤ => (k : ℝ)))
  let b : List ℝ := scaled.map (fun x => (roundEven x : ℝ) - x)
  have hfl : (feature c seed pos (scaled.map roundEven)).length = pos.length := by
    simp [feature, featurePoint, off_length pos _ h2 h4, hsl]
  have hab : distSq (feature c seed pos (scaled.map roundEven)) scaled = normSq (List.zipWith (· + ·) a b) := by
    unfold distSq
    congr 1
    apply List.ext_getElem
    · simp [a, b]
    · intro i h1 h2; simp [a, b]
  have hb : normSq b ≤ 1 := by
    have hb' : ∀ x ∈ b, |x| ≤ 1 / 2 := by
      intro x hx
      obtain ⟨y, _, rfl⟩ := List.mem_map.mp hx
      rw [abs_sub_comm]
      exact abs_sub_roundEven y
    have h := normSq_le_quarter b hb'
    have hl : (b.length : ℝ) ≤ 4 := by simp only [b, List.length_map, hsl]; exact_mod_cast h4
    linarith
  have ha : normSq a = J ^ 2 := hd
  have u := (normSq_add_le a b (by simp [a, b, hfl, hsl])).1
  rw [hab]
  refine u.trans ?_
  rw [ha, Real.sqrt_sq hJ0]
  have h1 : √(normSq b) ≤ 1 := Real.sqrt_le_one.mpr hb
  have h2' : J ≤ 1 := by
    have : 0 ≤ J * √(pos.length) := by positivity
    nlinarith
  have := Real.sqrt_nonneg (normSq b)
  nlinarith

/-- **C43**, CellularLookup looks up the globally nearest feature point: in 2D and 4D for every grid jitter in [-1, 1], in 3D up to 0.99999 (hence partial),
with a Euclidean metric and no size jitter. -/
theorem C43_lookup_nearest_partial (relaxed : Bool) (c : Cfg) (lookup : Src) (junk : List ℝ) (seed : I32) (pos : Pos) (h2 : 2 ≤ pos.length) (h4 : pos.length ≤ 4)
    (hfn : c.fn = .euclidean ∨ c.fn = .euclideanSquared) (hs : c.sizeIsNode = false ∧ c.sizeConst = 0)
    (hr : ∀ x ∈ scalePositions (frequency c.scale) pos, CellRange x)
    (hg : |c.gridJitter seed pos| ≤ if pos.length = 3 then 0.99999 else 1) :
    ∃ m : List ℤ, m.length = pos.length ∧
      (∀ m' : List ℤ, m'.length = pos.length →
        distSq (feature c seed pos m) (scalePositions (frequency c.scale) pos) ≤ distSq (feature c seed pos m') (scalePositions (frequency c.scale) pos)) ∧
      cellularLookup relaxed c lookup junk seed pos = lookup (seed + 1) ((feature c seed pos m).map (· * c.scale)) := by
  have hlen : (scalePositions (frequency c.scale) pos).length = pos.length := by simp [scalePositions]
  have hJn : |(tab pos).kJitter * c.gridJitter seed pos| * √pos.length + 2 * |(tab pos).kJitter * c.gridJitter seed pos| ^ 2 ≤ 1 := by
    by_cases h3 : pos.length = 3
    · rw [if_pos h3] at hg; exact (C43_constants_3D pos h3 _ hg).1
    · rw [if_neg h3] at hg; exact C43_constants_2D_4D pos (by omega) _ hg
  have hfin : ∃ p ∈ scanned relaxed false c seed pos, p.1 < fltMax := by
    let own : List ℤ := (scalePositions (frequency c.scale) pos).map roundEven
    obtain ⟨p, hp, hle⟩ := C43_nearest_visited relaxed c seed pos h2 h4 hfn hs hr _ rfl hJn own (by simp [own, hlen])
    exact ⟨p, hp, lt_of_le_of_lt (hle.trans (own_distance_le c seed pos h2 h4 hJn)) (by norm_num [fltMax])⟩
  obtain ⟨q, hq, hmin, he⟩ := C27_lookup relaxed c lookup junk seed pos hfin
  obtain ⟨cell, hc, hcq⟩ := List.mem_map.mp hq
  obtain ⟨m, hm, rfl⟩ := visited_cells _ (by omega) hr cell hc
  have hqf : q.2.2 = feature c seed pos m := by
    rw [← hcq]; simp only [feature, cellHash, cellOf_snd, cellOf_fst m (by omega)]
  have hqd : q.1 = distSq q.2.2 (scalePositions (frequency c.scale) pos) := by
    rw [← hcq]; exact cellDistance_sq _ _ _ _ _ _ _ _ hfn hs
  refine ⟨m, by omega, ?_, by rw [he, hqf]⟩
  intro m' hm'
  obtain ⟨p, hp, hle⟩ := C43_nearest_visited relaxed c seed pos h2 h4 hfn hs hr _ rfl hJn m' hm'
  rw [← hqf, ← hqd]
  exact (hmin p hp).trans hle

/-! ## The hypotheses are met -/

/-- A sample configuration: Euclidean metric, full grid jitter, no size jitter. -/
noncomputable def sampleCfg (fn : DistFn) (g : ℝ) : Cfg where
  seedOffset := 0
  scale := 1
  fn := fn
  minkowskiP := Src.const 1.5
  gridJitter := Src.const g
  sizeIsNode := false
  sizeConst := 0
  sizeNode := Src.const 0

theorem sample_range : ∀ x ∈ scalePositions (frequency (sampleCfg .euclidean 1).scale) [0, 0], CellRange x := by
  intro x hx
  have : x = 0 := by simpa [scalePositions, sampleCfg, frequency] using hx
  subst this
  have h : roundEven 0 = 0 := by have := roundEven_int 0; simpa using this
  simp [CellRange, h]

example : ∃ m : List ℤ, m.length = 2 ∧
    cellularLookup false (sampleCfg .euclidean 1) (fun _ p => p.sum) [] 7 [0, 0] = (((feature (sampleCfg .euclidean 1) 7 [0, 0] m).map (· * 1)).sum : ℝ) := by
  obtain ⟨m, h, _, e⟩ := C43_lookup_nearest_partial false (sampleCfg .euclidean 1) (fun _ p => p.sum) [] 7 [0, 0] (by simp) (by simp) (Or.inl rfl)
    (by simp [sampleCfg]) sample_range (by simp [sampleCfg, Src.const])
  exact ⟨m, h, e⟩

example : ∃ l : List ℝ, (l.Perm ((scanned false false (sampleCfg .euclidean 1) 7 [0, 0]).map fun p => p.1)) ∧ l.Pairwise (· ≤ ·) :=
  let ⟨l, h, h', _⟩ := C27_distance_combined_partial false (⟨-1, 2⟩ : Range ℝ) (sampleCfg .euclidean 1) .index0Sub1 0 1 (by simp) (by simp) 7 [0, 0] (by simp) (by simp)
  ⟨l, h, h'⟩

example : ∃ l : List (ℝ × I32), l.Pairwise (fun a b => a.1 ≤ b.1) ∧ ∃ h : 3 < l.length,
    cellularValue false ⟨-1, 2⟩ (sampleCfg .manhattan 1) 3 [0, 0, 0, 0] 7 [0.3, 0.8, 5] = (⟨-1, 2⟩ : Range ℝ).scaleOutput (l[3].2.toInt) (-valueBounds) valueBounds :=
  let ⟨l, _, h', h⟩ := C27_value false ⟨-1, 2⟩ (sampleCfg .manhattan 1) 3 (by simp) [0, 0, 0, 0] rfl 7 [0.3, 0.8, 5] (by simp) (by simp)
  ⟨l, h', h⟩

/-- The NaN of `C27_zero_distance_nan` is reachable: grid jitter 0, sampled at a lattice point. -/
theorem C27_nan_reachable : cellularDistance false (⟨-1, 2⟩ : Range ℝ) (sampleCfg .euclidean 0) .index0 0 1 7 [0, 0] = none := by
  obtain ⟨l, hp, hs, h⟩ := C27_zero_distance_nan false (⟨-1, 2⟩ : Range ℝ) (sampleCfg .euclidean 0) .index0 0 1 (by simp) (by simp) rfl 7 [0, 0] (by simp) (by simp)
  apply h
  have hr : ∀ x ∈ scalePositions (frequency (sampleCfg .euclidean 0).scale) [0, 0], CellRange x := sample_range
  have hd : ∀ p ∈ scanned false false (sampleCfg .euclidean 0) 7 [0, 0], p.1 = distSq p.2.2 (scalePositions (frequency (sampleCfg .euclidean 0).scale) [0, 0]) := by
    intro p hp
    obtain ⟨cell, hc, hcq⟩ := List.mem_map.mp hp
    rw [← hcq]; exact cellDistance_sq _ _ _ _ _ _ _ _ (Or.inl rfl) (by simp [sampleCfg])
  have h0 : ∃ p ∈ scanned false false (sampleCfg .euclidean 0) 7 [0, 0], p.1 ≤ 0 := by
    obtain ⟨p, hp, hle⟩ := C43_nearest_visited false (sampleCfg .euclidean 0) 7 [0, 0] (by simp) (by simp) (Or.inl rfl)
      (by simp [sampleCfg]) hr 0 (by simp [sampleCfg, Src.const]) (by simp) [0, 0] rfl
    refine ⟨p, hp, hle.trans (le_of_eq ?_)⟩
    have := C43_displacement (sampleCfg .euclidean 0) 7 [0, 0] (by simp) (by simp) [0, 0] rfl
    simpa [sampleCfg, Src.const, scalePositions, frequency] using this
  have hn : ∀ x ∈ l, 0 ≤ x := by
    intro x hx
    obtain ⟨p, hpm, rfl⟩ := List.mem_map.mp (hp.mem_iff.mp hx)
    rw [hd p hpm]; exact normSq_nonneg _
  obtain ⟨p, hpm, hle⟩ := h0
  have hm : p.1 ∈ l := hp.mem_iff.mpr (List.mem_map_of_mem (f := fun p => p.1) hpm)
  cases l with
  | nil => simp at hm
  | cons a r =>
    have ha := hn a (by simp)
    have : a ≤ p.1 := by
      rcases List.mem_cons.mp hm with e | e
      · exact e.ge
      · exact (List.pairwise_cons.mp hs).1 _ e
    simp only [List.getElem?_cons_zero]
    congr 1
    linarith

end FastNoise.Cellular
