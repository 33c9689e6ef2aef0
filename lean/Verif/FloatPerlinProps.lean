import Verif.FloatPerlinLemmas
import Verif.FloatNoiseProps
import Verif.GradientProps
/-!
# C61: Perlin noise in binary32 arithmetic

C36 speaks of exact arithmetic.  Here every operation of `Perlin::Gen` rounds to binary32; `Feat` chooses among the code paths compiled for the different SIMD levels and `Level` whether
multiply-add is fused.  Positions, scales and seeds are arbitrary.
-/
namespace FastNoise.F32
open FastNoise.Hash FastNoise.Num FastNoise.Basic FastNoise.Lattice
open FastNoise.Gradient (Feat)

noncomputable section

/-! ## The model unfolds to the code -/

/-- Perlin.inl:37-74 -/
theorem perlinF_3D (ft : Feat) (L : Level) (seed : I32) (x y z : ℝ) :
    let x0 := convertI32 (⌊x⌋ : ℤ) * primeX
    let y0 := convertI32 (⌊y⌋ : ℤ) * primeY
    let z0 := convertI32 (⌊z⌋ : ℤ) * primeZ
    let x1 := x0 + primeX
    let y1 := y0 + primeY
    let z1 := z0 + primeZ
    let xf0 := sub x (⌊x⌋ : ℤ)
    let yf0 := sub y (⌊y⌋ : ℤ)
    let zf0 := sub z (⌊z⌋ : ℤ)
    let xf1 := sub xf0 1
    let yf1 := sub yf0 1
    let zf1 := sub zf0 1
    let xs := interpQuintic L xf0
    let ys := interpQuintic L yf0
    let zs := interpQuintic L zf0
    let g := fun a b c f => dotCommon ft L (hashPrimes seed [a, b, c]) f
    perlinRaw ft L seed [x, y, z] = lerp L
      (lerp L (lerp L (g x0 y0 z0 xf0 yf0 zf0) (g x1 y0 z0 xf1 yf0 zf0) xs) (lerp L (g x0 y1 z0 xf0 yf1 zf0) (g x1 y1 z0 xf1 yf1 zf0) xs) ys)
      (lerp L (lerp L (g x0 y0 z1 xf0 yf0 zf1) (g x1 y0 z1 xf1 yf0 zf1) xs) (lerp L (g x0 y1 z1 xf0 yf1 zf1) (g x1 y1 z1 xf1 yf1 zf1) xs) ys) zs := rfl

/-! ## Distance from exact arithmetic -/

/-- **C61**: in binary32, on every SIMD level, Perlin noise is within `400 n / 2^25` (0.000024 in 2D, 0.000036 in 3D, 0.000048 in 4D), in units of a power of two that bounds the output range,
of the exact Perlin noise (`Lattice.perlin`, C36) at the scaled position the processor computes (`C58_scaled_position` says what that is). -/
theorem C61_perlin_near_exact {e : ℤ} (ops : List (SetOp ℝ)) (h : OnGrid e ops) {k : ℤ} (hk : -100 ≤ k) (bl : |lastMin ops| ≤ 2 ^ k) (bh : |lastMax ops| ≤ 2 ^ k)
    (ft : Feat) (L : Level) (scale : ℝ) (off seed : I32) (pos : Pos) (h2 : 2 ≤ pos.length) (h4 : pos.length ≤ 4) :
    |perlin ft L (rangeAfterF ops) scale off seed pos - Lattice.perlin ft (rangeAfter ops) 1 off seed (scalePositions (frequency scale) pos)| ≤
      400 * pos.length / 2 ^ 25 * 2 ^ k := by
  obtain ⟨hra, hm, hM⟩ := C58_setters_exact ops h
  obtain ⟨q, hq⟩ : ∃ q, scalePositions (frequency scale) pos = q := ⟨_, rfl⟩
  have hlen : q.length = pos.length := by rw [← hq]; simp [scalePositions]
  have hsc : (rangeAfterF ops).rangeScale = lastMax ops - lastMin ops := by rw [← hM, hm]; ring
  have hr : rangeAfterF ops = ⟨lastMin ops, lastMax ops - lastMin ops⟩ := by rw [← hsc, ← hm]
  have hone : Basic.scalePositions (Basic.frequency 1) q = q := by unfold Basic.scalePositions Basic.frequency; simp
  have hu := U_pos
  have hs := U_small
  have hpk := two_zpow_pos k
  unfold perlin Lattice.perlin
  rw [hq, hone, ← hra, hlen, hr]
  have raw := perlinRaw_err ft L (seed + off) q (by omega) (by omega)
  rw [hlen] at raw
  have hb : |Lattice.perlinRaw ft (seed + off) q| ≤ 1.2 * perlinBound pos.length := by
    have hl : q.length = 2 ∨ q.length = 3 ∨ q.length = 4 := by omega
    rw [← hlen]
    rcases hl with hl | hl | hl
    · obtain ⟨x, y, rfl⟩ := List.length_eq_two.mp hl
      refine (perlinRaw2_le ft _ _ _).trans ?_
      rw [hl]; norm_num [perlinBound]
    · obtain ⟨x, y, z, rfl⟩ := List.length_eq_three.mp hl
      refine (perlinRaw3_le ft _ _ _ _).trans ?_
      rw [hl]; norm_num [perlinBound]
    · obtain ⟨x, y, z, w, rfl⟩ := List.length_eq_four.mp hl
      refine (perlinRaw4_le ft _ _ _ _ _).trans ?_
      rw [hl]; norm_num [perlinBound]
  unfold Range.scaleOutput
  have key := scaleP_err L hk bl bh (b := perlinBound pos.length) (by unfold perlinBound; split_ifs <;> norm_num) (by unfold perlinBound; split_ifs <;> norm_num)
    (by
      unfold perlinBound
      split_ifs
      · exact ⟨14485420, -22, by norm_num, by norm_num, by norm_num⟩
      · exact ⟨8693470, -22, by norm_num, by norm_num, by norm_num⟩
      · exact ⟨11228875, -22, by norm_num, by norm_num, by norm_num⟩) hb raw (by
      have hl : pos.length = 2 ∨ pos.length = 3 ∨ pos.length = 4 := by omega
      rcases hl with hl | hl | hl <;> rw [hl] <;> norm_num [cornerBound] <;> linarith)
  refine key.trans (mul_le_mul_of_nonneg_right ?_ hpk.le)
  have hU : (1 : ℝ) / 2 ^ 25 = U := rfl
  have hl : pos.length = 2 ∨ pos.length = 3 ∨ pos.length = 4 := by omega
  rcases hl with hl | hl | hl <;> rw [hl] <;> norm_num [cornerBound, perlinBound, U]

/-- Non-vacuity: the default range in 3D. -/
example (ft : Feat) (L : Level) (scale : ℝ) (off seed : I32) (x y z : ℝ) :
    |perlin ft L Range.init scale off seed [x, y, z] - Lattice.perlin ft Range.init 1 off seed (scalePositions (frequency scale) [x, y, z])| ≤ 0.000036 := by
  have := C61_perlin_near_exact (e := 0) [] ⟨by norm_num, by norm_num, by simp⟩ (k := 0) (by norm_num) (by norm_num [lastMin]) (by norm_num [lastMax]) ft L scale off seed [x, y, z]
    (by simp) (by simp)
  have e1 : rangeAfterF [] = Range.init := rfl
  have e2 : rangeAfter [] = Range.init := rfl
  rw [e1, e2] at this
  refine this.trans ?_
  norm_num

/-! ## SIMD levels -/

theorem gradDot_level (ft ft' : Feat) (h : I32) (l : List ℝ) : Lattice.gradDot ft h l = Lattice.gradDot ft' h l := by
  unfold Lattice.gradDot
  split
  · rw [Gradient.dotPerlin2_eq, Gradient.dotPerlin2_eq]
  · rw [Gradient.dotCommon_eq, Gradient.dotCommon_eq]
  · rw [Gradient.dotPerlin4_eq, Gradient.dotPerlin4_eq]
  · rfl

theorem perlin_level (ft ft' : Feat) (r : Range ℝ) (scale : ℝ) (off seed : I32) (pos : Pos) :
    Lattice.perlin ft r scale off seed pos = Lattice.perlin ft' r scale off seed pos := by
  unfold Lattice.perlin Lattice.perlinRaw
  have : ∀ x : Pos, (fun bs => Lattice.gradDot ft (hashPrimes (seed + off) (corner x bs)) (Lattice.offset x bs)) =
      (fun bs => Lattice.gradDot ft' (hashPrimes (seed + off) (corner x bs)) (Lattice.offset x bs)) := by
    intro x; funext bs; exact gradDot_level ft ft' _ _
  rw [this]

/-- **C61**: the outputs of two processors, whatever their SIMD levels, differ by at most `800 n / 2^25` (less than 0.0001) in units of a power of two that bounds the range. -/
theorem C61_perlin_levels {e : ℤ} (ops : List (SetOp ℝ)) (h : OnGrid e ops) {k : ℤ} (hk : -100 ≤ k) (bl : |lastMin ops| ≤ 2 ^ k) (bh : |lastMax ops| ≤ 2 ^ k)
    (ft ft' : Feat) (L L' : Level) (scale : ℝ) (off seed : I32) (pos : Pos) (h2 : 2 ≤ pos.length) (h4 : pos.length ≤ 4) :
    |perlin ft L (rangeAfterF ops) scale off seed pos - perlin ft' L' (rangeAfterF ops) scale off seed pos| ≤ 800 * pos.length / 2 ^ 25 * 2 ^ k := by
  have a := abs_le.mp (C61_perlin_near_exact ops h hk bl bh ft L scale off seed pos h2 h4)
  have b := abs_le.mp (C61_perlin_near_exact ops h hk bl bh ft' L' scale off seed pos h2 h4)
  rw [perlin_level ft' ft] at b
  have e1 : 800 * (pos.length : ℝ) / 2 ^ 25 * 2 ^ k = 2 * (400 * pos.length / 2 ^ 25 * 2 ^ k) := by ring
  rw [e1, abs_le]
  constructor <;> linarith

/-- **C61**: and Value noise likewise, by at most `(40 n + 14) / 2^25` (less than 0.000006). -/
theorem C61_value_levels {e : ℤ} (ops : List (SetOp ℝ)) (h : OnGrid e ops) {k : ℤ} (hk : -100 ≤ k) (bl : |lastMin ops| ≤ 2 ^ k) (bh : |lastMax ops| ≤ 2 ^ k)
    (L L' : Level) (scale : ℝ) (off seed : I32) (pos : Pos) :
    |value L (rangeAfterF ops) scale off seed pos - value L' (rangeAfterF ops) scale off seed pos| ≤ (40 * pos.length + 14) / 2 ^ 25 * 2 ^ k := by
  have a := abs_le.mp (C58_value_near_exact ops h hk bl bh L scale off seed pos)
  have b := abs_le.mp (C58_value_near_exact ops h hk bl bh L' scale off seed pos)
  have e1 : (40 * (pos.length : ℝ) + 14) / 2 ^ 25 * 2 ^ k = 2 * ((20 * pos.length + 7) / 2 ^ 25 * 2 ^ k) := by ring
  rw [e1, abs_le]
  constructor <;> linarith

/-- Non-vacuity of both: the default range. -/
example : OnGrid 0 [] ∧ (-100 : ℤ) ≤ 0 ∧ |lastMin ([] : List (SetOp ℝ))| ≤ 2 ^ (0 : ℤ) ∧ |lastMax ([] : List (SetOp ℝ))| ≤ 2 ^ (0 : ℤ) :=
  ⟨⟨by norm_num, by norm_num, by simp⟩, by norm_num, by norm_num [lastMin], by norm_num [lastMax]⟩

/-! ## Range -/

/-- **C61**: 2D Perlin noise leaves the range set by the user by at most 0.000024 of a power of two that bounds the limits; in 3D and 4D it stays, up to as little, within the 0.002 % resp. 14.8 % of
`C36_perlin_range_partial` (partial for that reason: the exact noise itself leaves the range there, `C36_perlin3_leaves_range`). -/
theorem C61_perlin_range_partial {e : ℤ} (ops : List (SetOp ℝ)) (h : OnGrid e ops) (hle : lastMin ops ≤ lastMax ops) {k : ℤ} (hk : -100 ≤ k)
    (bl : |lastMin ops| ≤ 2 ^ k) (bh : |lastMax ops| ≤ 2 ^ k)
    (ft : Feat) (L : Level) (scale : ℝ) (off seed : I32) (pos : Pos) (h2 : 2 ≤ pos.length) (h4 : pos.length ≤ 4) :
    |perlin ft L (rangeAfterF ops) scale off seed pos - (lastMin ops + lastMax ops) / 2| ≤
      (if pos.length = 2 then 1 else if pos.length = 3 then 1.00002 else 1.148) * ((lastMax ops - lastMin ops) / 2) + 400 * pos.length / 2 ^ 25 * 2 ^ k := by
  have hlen : (scalePositions (frequency scale) pos).length = pos.length := by simp [scalePositions]
  have a := abs_le.mp (C61_perlin_near_exact ops h hk bl bh ft L scale off seed pos h2 h4)
  have b := C36_perlin_range_partial ft ops hle 1 off seed (scalePositions (frequency scale) pos) (by omega) (by omega)
  rw [hlen] at b
  have b' := abs_le.mp b
  rw [abs_le]
  constructor <;> linarith

/-- Non-vacuity: 2D, range 0 to 255. -/
example (ft : Feat) (L : Level) (scale : ℝ) (off seed : I32) (x y : ℝ) :
    |perlin ft L (rangeAfterF [.min 0, .max 255]) scale off seed [x, y] - 127.5| ≤ 127.5 + 0.0062 := by
  have hg : OnGrid 0 [SetOp.min (0 : ℝ), .max 255] := by
    refine ⟨by norm_num, by norm_num, ?_⟩
    intro op hop
    simp at hop
    rcases hop with rfl | rfl
    · exact ⟨0, by norm_num, by norm_num [argOf]⟩
    · exact ⟨255, by norm_num, by norm_num [argOf]⟩
  have := C61_perlin_range_partial _ hg (by norm_num [lastMin, lastMax]) (k := 8) (by norm_num) (by norm_num [lastMin]) (by norm_num [lastMax]) ft L scale off seed [x, y]
    (by simp) (by simp)
  have e1 : lastMin [SetOp.min (0 : ℝ), .max 255] = 0 := by simp [lastMin]
  have e2 : lastMax [SetOp.min (0 : ℝ), .max 255] = 255 := by simp [lastMax]
  rw [e1, e2] at this
  norm_num at this ⊢
  linarith

/-! ## Lattice points -/

theorem quinticF_zero (L : Level) : interpQuintic L 0 = 0 := by
  unfold interpQuintic mul; simp [fl_zero]

theorem gradDotF_zero (ft : Feat) (L : Level) (h : I32) (n : Nat) : gradDot ft L h (List.replicate n 0) = 0 := by
  have x0 : ∀ s, Gradient.xorSign 0 s = 0 := by intro s; unfold Gradient.xorSign; simp
  have s0 : ∀ b, Gradient.select b 0 0 = 0 := by intro b; unfold Gradient.select; simp
  have h0 : ∀ b, Gradient.selectHighBit b 0 0 = 0 := by intro b; unfold Gradient.selectHighBit; simp
  have f0 : ∀ g, fma L g 0 0 = 0 := by intro g; unfold fma add mul; simp [fl_zero]
  have f0' : ∀ g, fma L 0 g 0 = 0 := by intro g; unfold fma add mul; simp [fl_zero]
  have m0 : ∀ g, mul 0 g = 0 := by intro g; unfold mul; rw [zero_mul, fl_zero]
  have a0 : add 0 0 = 0 := by unfold add; rw [add_zero, fl_zero]
  match n with
  | 0 | 1 => rfl
  | 2 => simp only [List.replicate, gradDot, dotPerlin2, x0, h0, m0, f0]; split_ifs <;> rfl
  | 3 => simp only [List.replicate, gradDot, dotCommon, x0, s0, m0, f0, f0', a0]; split_ifs <;> rfl
  | 4 => simp only [List.replicate, gradDot, dotPerlin4, x0, s0, h0, m0, f0, f0', a0]; split_ifs <;> rfl
  | n + 5 => rfl

theorem offset_int (m : List ℤ) : offset (m.map fun k : ℤ => (k : ℝ)) (List.replicate m.length false) = List.replicate m.length 0 := by
  induction m with
  | nil => rfl
  | cons a m ih =>
    simp only [offset] at ih
    simp only [List.map_cons, List.length_cons, List.replicate_succ, offset, List.zipWith_cons_cons, ih]
    simp [sub, fl_zero]

theorem rep_gradDot (ft : Feat) (L : Level) (h : I32) (l : List ℝ) : Rep (gradDot ft L h l) := by
  unfold gradDot
  split
  · unfold dotPerlin2; simp only; split_ifs <;> exact rep_fma _ _ _ _
  · unfold dotCommon; simp only; split_ifs
    · exact rep_fma _ _ _ _
    · exact rep_fl _
    · exact rep_fl _
  · unfold dotPerlin4; simp only; split_ifs
    · exact rep_fma _ _ _ _
    · exact rep_fl _
  · exact rep_zero

/-- **C61**: where the scaled coordinates are integers the noise is exactly 0 before the mapping to the output range: the output is the same for all seeds and code paths. -/
theorem C61_perlin_lattice (ft : Feat) (L : Level) (r : Range ℝ) (scale : ℝ) (off seed : I32) (pos : Pos) (m : List ℤ)
    (hm : scalePositions (frequency scale) pos = m.map fun k : ℤ => (k : ℝ)) :
    perlin ft L r scale off seed pos = scaleOutput L r 0 (-perlinBound pos.length) (perlinBound pos.length) := by
  unfold perlin perlinRaw
  rw [hm, interp_zero]
  · congr 1
    rw [List.length_map, List.length_map, offset_int]
    exact gradDotF_zero ft L _ _
  · intro t ht
    obtain ⟨x, hx, rfl⟩ := List.mem_map.mp ht
    obtain ⟨k, _, rfl⟩ := List.mem_map.mp hx
    rw [Int.floor_intCast]
    unfold sub
    rw [sub_self, fl_zero, quinticF_zero]
  · intro bs
    exact rep_gradDot ft L _ _

/-- Non-vacuity: scale 8, the point (16, -40). -/
example : scalePositions (frequency 8) [16, -40] = [2, -5].map fun k : ℤ => (k : ℝ) := by
  have hf : frequency 8 = 1 / 8 := fl_rep ⟨1, -3, by norm_num, by norm_num, by norm_num⟩
  rw [hf]
  simp only [scalePositions, mul, List.map_cons, List.map_nil]
  rw [show (16 : ℝ) * (1 / 8) = ((2 : ℤ) : ℝ) by norm_num, show (-40 : ℝ) * (1 / 8) = ((-5 : ℤ) : ℝ) by norm_num, fl_rep (rep_int (by norm_num)), fl_rep (rep_int (by norm_num))]

end
end FastNoise.F32
