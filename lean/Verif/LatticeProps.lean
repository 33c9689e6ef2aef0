import Verif.PerlinRangeLemmas
import Verif.BasicProps
/-!
# C36: lattice noises

`rangeAfter ops`, `lastMin ops`, `lastMax ops` (Verif.BasicProps): the output range after any history of SetOutputMin / SetOutputMax calls.
-/
namespace FastNoise.Lattice
open FastNoise.Hash FastNoise.Num FastNoise.Basic FastNoise.Gradient

/-! ## The model unfolds to the code -/

/-- Value.inl:23-25 -/
theorem value_2D (seed : I32) (x y : ℝ) :
    let x0 := convertI32 (⌊x⌋ : ℤ) * primeX
    let y0 := convertI32 (⌊y⌋ : ℤ) * primeY
    let x1 := x0 + primeX
    let y1 := y0 + primeY
    let xs := interpHermite (x - (⌊x⌋ : ℤ))
    let ys := interpHermite (y - (⌊y⌋ : ℤ))
    let v := fun a b => ((valueCoord seed [a, b]).toInt : ℝ)
    valueRaw seed [x, y] = lerp (lerp (v x0 y0) (v x1 y0) xs) (lerp (v x0 y1) (v x1 y1) xs) ys := rfl

/-- Perlin.inl:65-69 -/
theorem perlin_3D (ft : Feat) (seed : I32) (x y z : ℝ) :
    let x0 := convertI32 (⌊x⌋ : ℤ) * primeX
    let y0 := convertI32 (⌊y⌋ : ℤ) * primeY
    let z0 := convertI32 (⌊z⌋ : ℤ) * primeZ
    let x1 := x0 + primeX
    let y1 := y0 + primeY
    let z1 := z0 + primeZ
    let xf0 := x - (⌊x⌋ : ℤ)
    let yf0 := y - (⌊y⌋ : ℤ)
    let zf0 := z - (⌊z⌋ : ℤ)
    let xf1 := xf0 - 1
    let yf1 := yf0 - 1
    let zf1 := zf0 - 1
    let xs := interpQuintic xf0
    let ys := interpQuintic yf0
    let zs := interpQuintic zf0
    let g := fun a b c p q r => dotCommon ft (hashPrimes seed [a, b, c]) p q r
    perlinRaw ft seed [x, y, z] =
      lerp (lerp (lerp (g x0 y0 z0 xf0 yf0 zf0) (g x1 y0 z0 xf1 yf0 zf0) xs) (lerp (g x0 y1 z0 xf0 yf1 zf0) (g x1 y1 z0 xf1 yf1 zf0) xs) ys)
        (lerp (lerp (g x0 y0 z1 xf0 yf0 zf1) (g x1 y0 z1 xf1 yf0 zf1) xs) (lerp (g x0 y1 z1 xf0 yf1 zf1) (g x1 y1 z1 xf1 yf1 zf1) xs) ys) zs := rfl

/-! ## Specification -/

/-- The lattice value at integer coordinates `m`: the hash of the coordinates, as a signed number. -/
noncomputable def latticeValue (seed : I32) (m : List ℤ) : ℝ := (valueCoord seed (primed (m.map (BitVec.ofInt 32)))).toInt

/-- All lattice coordinates fit in 32 bits. -/
def Fits (m : List ℤ) : Prop := ∀ k ∈ m, -2 ^ 31 ≤ k ∧ k < 2 ^ 31

/-- All scaled coordinates are in the range of a 32 bit integer. -/
def PosFits (scale : ℝ) (pos : Pos) : Prop := ∀ p ∈ pos, -2 ^ 31 ≤ p / scale ∧ p / scale < 2 ^ 31

theorem inRange_iff (x : ℝ) : InRange x ↔ -2 ^ 31 ≤ x ∧ x < 2 ^ 31 := by
  unfold InRange
  rw [Int.le_floor, Int.floor_lt]
  norm_num

theorem posFits_inRange {scale : ℝ} {pos : Pos} (h : PosFits scale pos) : ∀ a ∈ scalePositions (frequency scale) pos, InRange a := by
  intro a ha
  obtain ⟨p, hp, rfl⟩ := List.mem_map.mp ha
  rw [inRange_iff, frequency, mul_one_div]
  exact h p hp

/-! ## Value -/

/-- **C36**: value noise stays in the output range, for every position whatsoever. -/
theorem C36_value_range (ops : List (SetOp ℝ)) (scale : ℝ) (off seed : I32) (pos : Pos) :
    min (lastMin ops) (lastMax ops) ≤ value (rangeAfter ops) scale off seed pos ∧
    value (rangeAfter ops) scale off seed pos ≤ max (lastMin ops) (lastMax ops) := by
  refine (C24_output_range ops (-valueBounds) valueBounds (by norm_num [valueBounds])).2.2.2 _ ?_ ?_
  all_goals
    have h := interp_mem (-valueBounds) valueBounds ((scalePositions (frequency scale) pos).map fun x => interpHermite (x - (⌊x⌋ : ℤ)))
      (fun bs => ((valueCoord (seed + off) (corner (scalePositions (frequency scale) pos) bs)).toInt : ℝ))
      (by
        intro t ht
        obtain ⟨x, _, rfl⟩ := List.mem_map.mp ht
        exact hermite_mem (fract_range x).1 (fract_range x).2)
      (fun bs _ => toInt_range _)
  · exact h.1
  · exact h.2

theorem scale_lattice {scale : ℝ} (hs : scale ≠ 0) (m : List ℤ) :
    scalePositions (frequency scale) (m.map fun k : ℤ => (k : ℝ) * scale) = m.map fun k : ℤ => (k : ℝ) := by
  simp only [scalePositions, List.map_map, frequency]
  refine List.map_congr_left fun k _ => ?_
  simp [hs]

theorem fits_inRange {m : List ℤ} (h : Fits m) : ∀ a ∈ m.map (fun k : ℤ => (k : ℝ)), InRange a := by
  intro a ha
  obtain ⟨k, hk, rfl⟩ := List.mem_map.mp ha
  simpa [InRange] using h k hk

theorem cornerZ_int (m : List ℤ) : cornerZ (m.map fun k : ℤ => (k : ℝ)) (List.replicate m.length false) = m := by
  apply List.ext_getElem
  · simp [cornerZ]
  · intro i h1 h2; simp [cornerZ]

/-- **C36**: at a lattice point value noise is exactly the value of that lattice point. -/
theorem C36_value_lattice (r : Range ℝ) (scale : ℝ) (hs : scale ≠ 0) (off seed : I32) (m : List ℤ) (hm : Fits m) :
    value r scale off seed (m.map fun k : ℤ => (k : ℝ) * scale) = r.scaleOutput (latticeValue (seed + off) m) (-valueBounds) valueBounds := by
  unfold value valueRaw
  rw [scale_lattice hs, interp_zero, corner_eq _ _ (fits_inRange hm)]
  · simp only [List.length_map, cornerZ_int]; rfl
  · intro t ht
    simp only [List.map_map] at ht
    obtain ⟨k, _, rfl⟩ := List.mem_map.mp ht
    simp [interpHermite]

/-- **C36**: value noise is a (jointly) continuous function of the position, in particular across cell borders, on all positions whose cells fit in 32 bits. -/
theorem C36_value_continuous (r : Range ℝ) (scale : ℝ) (off seed : I32) (n : Nat) :
    ContinuousOn (fun p : Fin n → ℝ => value r scale off seed (List.ofFn p)) {p | PosFits scale (List.ofFn p)} := by
  let as : List ((Fin n → ℝ) → ℝ) := List.ofFn fun i => fun p => p i * frequency scale
  have hpos : ∀ p : Fin n → ℝ, scalePositions (frequency scale) (List.ofFn p) = as.map (· p) := by
    intro p; simp only [as, scalePositions, List.map_ofFn]; rfl
  have hcont := interp_continuous interpHermite (by unfold interpHermite fnma; fun_prop) (by simp [interpHermite]) (by norm_num [interpHermite, fnma]) as
    (fun m _ => latticeValue (seed + off) m)
    (by intro a ha; obtain ⟨i, rfl⟩ := (List.mem_ofFn' _ _).mp ha; fun_prop) (fun m _ => continuous_const)
  have hfull : Continuous fun p : Fin n → ℝ => r.scaleOutput (interp (fun bs => latticeValue (seed + off) (cornerZ (as.map (· p)) bs))
      ((as.map (· p)).map fun t => interpHermite (t - (⌊t⌋ : ℤ)))) (-valueBounds) valueBounds := by
    unfold Range.scaleOutput Num.fma
    fun_prop
  refine hfull.continuousOn.congr ?_
  intro p hp
  simp only [value, valueRaw]
  congr 1
  rw [hpos]
  refine interp_congr _ _ _ fun bs _ => ?_
  rw [corner_eq]
  · rfl
  · rw [← hpos]; exact posFits_inRange hp

/-! ## Perlin -/

/-- **C36**: at a lattice point Perlin noise is exactly the middle of the output range. -/
theorem C36_perlin_lattice (ft : Feat) (ops : List (SetOp ℝ)) (scale : ℝ) (hs : scale ≠ 0) (off seed : I32) (m : List ℤ) :
    perlin ft (rangeAfter ops) scale off seed (m.map fun k : ℤ => (k : ℝ) * scale) = (lastMin ops + lastMax ops) / 2 := by
  have hz : perlinRaw ft (seed + off) (m.map fun k : ℤ => (k : ℝ)) = 0 := by
    unfold perlinRaw
    rw [interp_zero]
    · have : offset (m.map fun k : ℤ => (k : ℝ)) (List.replicate m.length false) = List.replicate m.length 0 := by
        apply List.ext_getElem
        · simp [offset]
        · intro i h1 h2; simp [offset]
      simp only [List.length_map, this, gradDot_zero]
    · intro t ht
      simp only [List.map_map] at ht
      obtain ⟨k, _, rfl⟩ := List.mem_map.mp ht
      simp [interpQuintic]
  have hb : 0 < perlinBound (m.map fun k : ℤ => (k : ℝ) * scale).length := by unfold perlinBound; split_ifs <;> norm_num
  obtain ⟨b, hbe⟩ : ∃ b, perlinBound (m.map fun k : ℤ => (k : ℝ) * scale).length = b := ⟨_, rfl⟩
  unfold perlin
  rw [hbe] at hb ⊢
  rw [scale_lattice hs, hz, (C24_output_range ops _ _ (by linarith)).2.2.1]
  field_simp
  ring

/-- **C36**: Perlin noise is a (jointly) continuous function of the position, in particular across cell borders. -/
theorem C36_perlin_continuous (ft : Feat) (r : Range ℝ) (scale : ℝ) (off seed : I32) (n : Nat) :
    ContinuousOn (fun p : Fin n → ℝ => perlin ft r scale off seed (List.ofFn p)) {p | PosFits scale (List.ofFn p)} := by
  let as : List ((Fin n → ℝ) → ℝ) := List.ofFn fun i => fun p => p i * frequency scale
  have hpos : ∀ p : Fin n → ℝ, scalePositions (frequency scale) (List.ofFn p) = as.map (· p) := by
    intro p; simp only [as, scalePositions, List.map_ofFn]; rfl
  have has : ∀ a ∈ as, Continuous a := by intro a ha; obtain ⟨i, rfl⟩ := (List.mem_ofFn' _ _).mp ha; fun_prop
  let C : List ℤ → (Fin n → ℝ) → ℝ := fun m p =>
    gradDot ft (hashPrimes (seed + off) (primed (m.map (BitVec.ofInt 32)))) (List.zipWith (fun (a : ℝ) (k : ℤ) => a - k) (as.map (· p)) m)
  have hC : ∀ m, m.length = as.length → Continuous (C m) := by
    intro m hm
    have e : C m = fun p => gradDot ft (hashPrimes (seed + off) (primed (m.map (BitVec.ofInt 32))))
        ((List.zipWith (fun (a : (Fin n → ℝ) → ℝ) (k : ℤ) => fun p => a p - (k : ℝ)) as m).map (· p)) := by
      funext p
      simp only [C]
      congr 1
      apply List.ext_getElem
      · simp
      · intro i h1 h2; simp
    rw [e]
    refine gradDot_continuous ft _ _ ?_
    intro a ha
    obtain ⟨i, hi, rfl⟩ := List.mem_iff_getElem.mp ha
    simp only [List.getElem_zipWith]
    have := has _ (List.getElem_mem (l := as) (n := i) (by simp at hi; omega))
    fun_prop
  have hcont := interp_continuous interpQuintic (by unfold interpQuintic Num.fma; fun_prop) (by simp [interpQuintic]) (by norm_num [interpQuintic, Num.fma]) as C has hC
  have hfull : Continuous fun p : Fin n → ℝ => r.scaleOutput (interp (fun bs => C (cornerZ (as.map (· p)) bs) p)
      ((as.map (· p)).map fun t => interpQuintic (t - (⌊t⌋ : ℤ)))) (-perlinBound n) (perlinBound n) := by
    unfold Range.scaleOutput Num.fma
    fun_prop
  refine hfull.continuousOn.congr ?_
  intro p hp
  have e : perlinRaw ft (seed + off) (scalePositions (frequency scale) (List.ofFn p)) = interp (fun bs => C (cornerZ (as.map (· p)) bs) p)
      ((as.map (· p)).map fun t => interpQuintic (t - (⌊t⌋ : ℤ))) := by
    rw [hpos]
    refine interp_congr _ _ _ fun bs hb => ?_
    rw [corner_eq]
    · simp only [C]
      congr 1
      rw [offset_eq, List.take_of_length_le]
      rw [hb]; simp
    · rw [← hpos]; exact posFits_inRange hp
  show perlin ft r scale off seed (List.ofFn p) = _
  unfold perlin
  rw [e, List.length_ofFn]

/-- **C36**, range of Perlin noise.  In 2D the output never leaves the range.  In 3D and 4D it leaves it by at most 0.002 % resp. 14.8 % of half its width
(hence partial: the property fails there, see `C36_perlin3_leaves_range`, `C36_perlin4_leaves_range`). -/
theorem C36_perlin_range_partial (ft : Feat) (ops : List (SetOp ℝ)) (h : lastMin ops ≤ lastMax ops) (scale : ℝ) (off seed : I32) (pos : Pos)
    (h2 : 2 ≤ pos.length) (h4 : pos.length ≤ 4) :
    |perlin ft (rangeAfter ops) scale off seed pos - (lastMin ops + lastMax ops) / 2| ≤
      (if pos.length = 2 then 1 else if pos.length = 3 then 1.00002 else 1.148) * ((lastMax ops - lastMin ops) / 2) := by
  obtain ⟨v, hv⟩ : ∃ v, perlinRaw ft (seed + off) (scalePositions (frequency scale) pos) = v := ⟨_, rfl⟩
  obtain ⟨b, hb⟩ : ∃ b, perlinBound pos.length = b := ⟨_, rfl⟩
  have hb0 : 0 < b := by rw [← hb]; unfold perlinBound; split_ifs <;> norm_num
  have key : |v| ≤ (if pos.length = 2 then 1 else if pos.length = 3 then 1.00002 else 1.148) * b := by
    rw [← hv, ← hb]
    have hl : pos.length = 2 ∨ pos.length = 3 ∨ pos.length = 4 := by omega
    rcases hl with hl | hl | hl
    · obtain ⟨x, y, rfl⟩ := List.length_eq_two.mp hl
      refine (perlinRaw2_le ft (seed + off) _ _).trans ?_
      rw [hl]; norm_num [perlinBound]
    · obtain ⟨x, y, z, rfl⟩ := List.length_eq_three.mp hl
      refine (perlinRaw3_tight ft (seed + off) _ _ _).trans ?_
      rw [hl]; norm_num [perlinBound]
    · obtain ⟨x, y, z, w, rfl⟩ := List.length_eq_four.mp hl
      refine (perlinRaw4_tight ft (seed + off) _ _ _ _).trans ?_
      rw [hl]; norm_num [perlinBound]
  unfold perlin
  rw [hv, hb, (C24_output_range ops _ _ (by linarith)).2.2.1]
  have e : lastMin ops + (v - -b) / (b - -b) * (lastMax ops - lastMin ops) - (lastMin ops + lastMax ops) / 2 = v * ((lastMax ops - lastMin ops) / (2 * b)) := by
    field_simp; ring
  have hw : 0 ≤ (lastMax ops - lastMin ops) / (2 * b) := by apply div_nonneg <;> linarith
  rw [e, abs_mul, abs_of_nonneg hw]
  generalize (if pos.length = 2 then (1 : ℝ) else if pos.length = 3 then 1.00002 else 1.148) = q at key ⊢
  calc |v| * ((lastMax ops - lastMin ops) / (2 * b)) ≤ q * b * ((lastMax ops - lastMin ops) / (2 * b)) :=
        mul_le_mul_of_nonneg_right key hw
    _ = q * ((lastMax ops - lastMin ops) / 2) := by field_simp

theorem axisCorner_of {x : ℝ} {k : ℤ} (h : ⌊x⌋ = k) (hk : -2 ^ 31 ≤ k ∧ k < 2 ^ 31) (p : I32) (b : Bool) :
    axisCorner x p b = BitVec.ofInt 32 k * p + if b then p else 0 := by
  unfold axisCorner
  rw [convertI32_floor (by unfold InRange; rw [h]; exact hk), h]
  cases b <;> simp

/-- Where C36 fails: 3D Perlin noise with default settings (scale 100, range [-1, 1], seed 1410) exceeds 1 at (235.53, 650, 348.15). -/
theorem C36_perlin3_leaves_range (ft : Feat) : 1 < perlin ft Range.init 100 0 1410 [235.53, 650, 348.15] := by
  have fx : ⌊(2.3553 : ℝ)⌋ = 2 := by rw [Int.floor_eq_iff]; norm_num
  have fy : ⌊(6.5 : ℝ)⌋ = 6 := by rw [Int.floor_eq_iff]; norm_num
  have fz : ⌊(3.4815 : ℝ)⌋ = 3 := by rw [Int.floor_eq_iff]; norm_num
  have hs : scalePositions (frequency 100) [235.53, 650, 348.15] = [2.3553, 6.5, 3.4815] := by norm_num [scalePositions, frequency]
  have raw : 1.03635 < perlinRaw ft (1410 + 0) [2.3553, 6.5, 3.4815] := by
    have g000 : low 4 (hashPrimes (1410 + 0) [BitVec.ofInt 32 2 * primeX + 0, BitVec.ofInt 32 6 * primeY + 0, BitVec.ofInt 32 3 * primeZ + 0]) = 8 := by decide
    have g100 : low 4 (hashPrimes (1410 + 0) [BitVec.ofInt 32 2 * primeX + primeX, BitVec.ofInt 32 6 * primeY + 0, BitVec.ofInt 32 3 * primeZ + 0]) = 14 := by decide
    have g010 : low 4 (hashPrimes (1410 + 0) [BitVec.ofInt 32 2 * primeX + 0, BitVec.ofInt 32 6 * primeY + primeY, BitVec.ofInt 32 3 * primeZ + 0]) = 13 := by decide
    have g110 : low 4 (hashPrimes (1410 + 0) [BitVec.ofInt 32 2 * primeX + primeX, BitVec.ofInt 32 6 * primeY + primeY, BitVec.ofInt 32 3 * primeZ + 0]) = 3 := by decide
    have g001 : low 4 (hashPrimes (1410 + 0) [BitVec.ofInt 32 2 * primeX + 0, BitVec.ofInt 32 6 * primeY + 0, BitVec.ofInt 32 3 * primeZ + primeZ]) = 10 := by decide
    have g101 : low 4 (hashPrimes (1410 + 0) [BitVec.ofInt 32 2 * primeX + primeX, BitVec.ofInt 32 6 * primeY + 0, BitVec.ofInt 32 3 * primeZ + primeZ]) = 7 := by decide
    have g011 : low 4 (hashPrimes (1410 + 0) [BitVec.ofInt 32 2 * primeX + 0, BitVec.ofInt 32 6 * primeY + primeY, BitVec.ofInt 32 3 * primeZ + primeZ]) = 11 := by decide
    have g111 : low 4 (hashPrimes (1410 + 0) [BitVec.ofInt 32 2 * primeX + primeX, BitVec.ofInt 32 6 * primeY + primeY, BitVec.ofInt 32 3 * primeZ + primeZ]) = 7 := by decide
    simp only [perlinRaw, interp, List.map_cons, List.map_nil, corner, primes, List.zip_cons_cons, List.zip_nil_left, List.zipWith_cons_cons, List.zipWith_nil_left,
      axisCorner_of fx (by norm_num), axisCorner_of fy (by norm_num), axisCorner_of fz (by norm_num), offset, fx, fy, fz, gradDot, dotCommon_eq,
      Bool.false_eq_true, if_false, if_true, g000, g100, g010, g110, g001, g101, g011, g111]
    have c8 : common3 (8 : Fin (2 ^ 4)) = (0, 1, 1) := rfl
    have c14 : common3 (14 : Fin (2 ^ 4)) = (-1, 1, 0) := rfl
    have c13 : common3 (13 : Fin (2 ^ 4)) = (0, -1, 1) := rfl
    have c3 : common3 (3 : Fin (2 ^ 4)) = (-1, -1, 0) := rfl
    have c10 : common3 (10 : Fin (2 ^ 4)) = (0, 1, -1) := rfl
    have c7 : common3 (7 : Fin (2 ^ 4)) = (-1, 0, -1) := rfl
    have c11 : common3 (11 : Fin (2 ^ 4)) = (0, -1, -1) := rfl
    simp only [c8, c14, c13, c3, c10, c7, c11, dot3, lerp, Num.fma, interpQuintic]
    norm_num
  unfold perlin
  rw [hs]
  show 1 < Range.init.scaleOutput _ (-perlinBound 3) (perlinBound 3)
  rw [show perlinBound 3 = 1.0363423824310302734375 by norm_num [perlinBound]]
  simp only [Range.scaleOutput, Range.init, Num.fma]
  norm_num at raw ⊢
  linarith

/-- Where C36 fails: 4D Perlin noise with default settings (scale 100, range [-1, 1], seed 65063) is above 1.11 at (8036, 12948, -27951, 29750). -/
theorem C36_perlin4_leaves_range (ft : Feat) : 1.11 < perlin ft Range.init 100 0 65063 [8036, 12948, -27951, 29750] := by
  have fx : ⌊(80.36 : ℝ)⌋ = 80 := by rw [Int.floor_eq_iff]; norm_num
  have fy : ⌊(129.48 : ℝ)⌋ = 129 := by rw [Int.floor_eq_iff]; norm_num
  have fz : ⌊(-279.51 : ℝ)⌋ = -280 := by rw [Int.floor_eq_iff]; norm_num
  have fw : ⌊(297.5 : ℝ)⌋ = 297 := by rw [Int.floor_eq_iff]; norm_num
  have hs : scalePositions (frequency 100) [8036, 12948, -27951, 29750] = [80.36, 129.48, -279.51, 297.5] := by norm_num [scalePositions, frequency]
  have raw : 1.491 < perlinRaw ft (65063 + 0) [80.36, 129.48, -279.51, 297.5] := by
    have g0 : low 5 (hashPrimes (65063 + 0) [BitVec.ofInt 32 (80) * primeX + 0, BitVec.ofInt 32 (129) * primeY + 0, BitVec.ofInt 32 (-280) * primeZ + 0, BitVec.ofInt 32 (297) * primeW + 0]) = 0 := by decide
    have g1 : low 5 (hashPrimes (65063 + 0) [BitVec.ofInt 32 (80) * primeX + primeX, BitVec.ofInt 32 (129) * primeY + 0, BitVec.ofInt 32 (-280) * primeZ + 0, BitVec.ofInt 32 (297) * primeW + 0]) = 25 := by decide
    have g2 : low 5 (hashPrimes (65063 + 0) [BitVec.ofInt 32 (80) * primeX + 0, BitVec.ofInt 32 (129) * primeY + primeY, BitVec.ofInt 32 (-280) * primeZ + 0, BitVec.ofInt 32 (297) * primeW + 0]) = 8 := by decide
    have g3 : low 5 (hashPrimes (65063 + 0) [BitVec.ofInt 32 (80) * primeX + primeX, BitVec.ofInt 32 (129) * primeY + primeY, BitVec.ofInt 32 (-280) * primeZ + 0, BitVec.ofInt 32 (297) * primeW + 0]) = 9 := by decide
    have g4 : low 5 (hashPrimes (65063 + 0) [BitVec.ofInt 32 (80) * primeX + 0, BitVec.ofInt 32 (129) * primeY + 0, BitVec.ofInt 32 (-280) * primeZ + primeZ, BitVec.ofInt 32 (297) * primeW + 0]) = 2 := by decide
    have g5 : low 5 (hashPrimes (65063 + 0) [BitVec.ofInt 32 (80) * primeX + primeX, BitVec.ofInt 32 (129) * primeY + 0, BitVec.ofInt 32 (-280) * primeZ + primeZ, BitVec.ofInt 32 (297) * primeW + 0]) = 11 := by decide
    have g6 : low 5 (hashPrimes (65063 + 0) [BitVec.ofInt 32 (80) * primeX + 0, BitVec.ofInt 32 (129) * primeY + primeY, BitVec.ofInt 32 (-280) * primeZ + primeZ, BitVec.ofInt 32 (297) * primeW + 0]) = 3 := by decide
    have g7 : low 5 (hashPrimes (65063 + 0) [BitVec.ofInt 32 (80) * primeX + primeX, BitVec.ofInt 32 (129) * primeY + primeY, BitVec.ofInt 32 (-280) * primeZ + primeZ, BitVec.ofInt 32 (297) * primeW + 0]) = 19 := by decide
    have g8 : low 5 (hashPrimes (65063 + 0) [BitVec.ofInt 32 (80) * primeX + 0, BitVec.ofInt 32 (129) * primeY + 0, BitVec.ofInt 32 (-280) * primeZ + 0, BitVec.ofInt 32 (297) * primeW + primeW]) = 20 := by decide
    have g9 : low 5 (hashPrimes (65063 + 0) [BitVec.ofInt 32 (80) * primeX + primeX, BitVec.ofInt 32 (129) * primeY + 0, BitVec.ofInt 32 (-280) * primeZ + 0, BitVec.ofInt 32 (297) * primeW + primeW]) = 13 := by decide
    have g10 : low 5 (hashPrimes (65063 + 0) [BitVec.ofInt 32 (80) * primeX + 0, BitVec.ofInt 32 (129) * primeY + primeY, BitVec.ofInt 32 (-280) * primeZ + 0, BitVec.ofInt 32 (297) * primeW + primeW]) = 12 := by decide
    have g11 : low 5 (hashPrimes (65063 + 0) [BitVec.ofInt 32 (80) * primeX + primeX, BitVec.ofInt 32 (129) * primeY + primeY, BitVec.ofInt 32 (-280) * primeZ + 0, BitVec.ofInt 32 (297) * primeW + primeW]) = 13 := by decide
    have g12 : low 5 (hashPrimes (65063 + 0) [BitVec.ofInt 32 (80) * primeX + 0, BitVec.ofInt 32 (129) * primeY + 0, BitVec.ofInt 32 (-280) * primeZ + primeZ, BitVec.ofInt 32 (297) * primeW + primeW]) = 6 := by decide
    have g13 : low 5 (hashPrimes (65063 + 0) [BitVec.ofInt 32 (80) * primeX + primeX, BitVec.ofInt 32 (129) * primeY + 0, BitVec.ofInt 32 (-280) * primeZ + primeZ, BitVec.ofInt 32 (297) * primeW + primeW]) = 15 := by decide
    have g14 : low 5 (hashPrimes (65063 + 0) [BitVec.ofInt 32 (80) * primeX + 0, BitVec.ofInt 32 (129) * primeY + primeY, BitVec.ofInt 32 (-280) * primeZ + primeZ, BitVec.ofInt 32 (297) * primeW + primeW]) = 7 := by decide
    have g15 : low 5 (hashPrimes (65063 + 0) [BitVec.ofInt 32 (80) * primeX + primeX, BitVec.ofInt 32 (129) * primeY + primeY, BitVec.ofInt 32 (-280) * primeZ + primeZ, BitVec.ofInt 32 (297) * primeW + primeW]) = 23 := by decide
    have c0 : perlin4 (0 : Fin (2 ^ 5)) = (0, 1, 1, 1) := by simp [perlin4, sgn, Nat.testBit]
    have c25 : perlin4 (25 : Fin (2 ^ 5)) = (-1, 1, 1, 0) := by simp [perlin4, sgn, Nat.testBit]
    have c8 : perlin4 (8 : Fin (2 ^ 5)) = (1, 0, 1, 1) := by simp [perlin4, sgn, Nat.testBit]
    have c9 : perlin4 (9 : Fin (2 ^ 5)) = (-1, 0, 1, 1) := by simp [perlin4, sgn, Nat.testBit]
    have c2 : perlin4 (2 : Fin (2 ^ 5)) = (0, 1, -1, 1) := by simp [perlin4, sgn, Nat.testBit]
    have c11 : perlin4 (11 : Fin (2 ^ 5)) = (-1, 0, -1, 1) := by simp [perlin4, sgn, Nat.testBit]
    have c3 : perlin4 (3 : Fin (2 ^ 5)) = (0, -1, -1, 1) := by simp [perlin4, sgn, Nat.testBit]
    have c19 : perlin4 (19 : Fin (2 ^ 5)) = (-1, -1, 0, 1) := by simp [perlin4, sgn, Nat.testBit]
    have c20 : perlin4 (20 : Fin (2 ^ 5)) = (1, 1, 0, -1) := by simp [perlin4, sgn, Nat.testBit]
    have c13 : perlin4 (13 : Fin (2 ^ 5)) = (-1, 0, 1, -1) := by simp [perlin4, sgn, Nat.testBit]
    have c12 : perlin4 (12 : Fin (2 ^ 5)) = (1, 0, 1, -1) := by simp [perlin4, sgn, Nat.testBit]
    have c6 : perlin4 (6 : Fin (2 ^ 5)) = (0, 1, -1, -1) := by simp [perlin4, sgn, Nat.testBit]
    have c15 : perlin4 (15 : Fin (2 ^ 5)) = (-1, 0, -1, -1) := by simp [perlin4, sgn, Nat.testBit]
    have c7 : perlin4 (7 : Fin (2 ^ 5)) = (0, -1, -1, -1) := by simp [perlin4, sgn, Nat.testBit]
    have c23 : perlin4 (23 : Fin (2 ^ 5)) = (-1, -1, 0, -1) := by simp [perlin4, sgn, Nat.testBit]
    simp only [perlinRaw, interp, List.map_cons, List.map_nil, corner, primes, List.zip_cons_cons, List.zip_nil_left, List.zipWith_cons_cons, List.zipWith_nil_left,
      axisCorner_of fx (by norm_num), axisCorner_of fy (by norm_num), axisCorner_of fz (by norm_num), axisCorner_of fw (by norm_num), offset, fx, fy, fz, fw, gradDot,
      dotPerlin4_eq, Bool.false_eq_true, if_false, if_true, g0, g1, g2, g3, g4, g5, g6, g7, g8, g9, g10, g11, g12, g13, g14, g15]
    simp only [c0, c25, c8, c9, c2, c11, c3, c19, c20, c13, c12, c6, c15, c7, c23, dot4, lerp, Num.fma, interpQuintic]
    norm_num
  unfold perlin
  rw [hs]
  show 1.11 < Range.init.scaleOutput _ (-perlinBound 4) (perlinBound 4)
  rw [show perlinBound 4 = 1.33858621120452880859375 by norm_num [perlinBound]]
  simp only [Range.scaleOutput, Range.init, Num.fma]
  norm_num at raw ⊢
  linarith

/-! ## The hypotheses are met -/

example : lastMin [] ≤ lastMax [] ∧ 2 ≤ ([5, 7.25] : Pos).length ∧ ([5, 7.25] : Pos).length ≤ 4 := by norm_num [lastMin, lastMax]
example : PosFits 100 (List.ofFn ![(5 : ℝ), -7.25, 1e9]) ∧ Fits [3, -4, 100000] := by
  constructor
  · intro p hp
    simp at hp
    rcases hp with rfl | rfl | rfl <;> norm_num
  · intro k hk
    simp at hk
    rcases hk with rfl | rfl | rfl <;> norm_num
/-- Lattice values differ: value noise is not constant. -/
example : valueCoord 1337 (primed ([0, 0].map (BitVec.ofInt 32))) ≠ valueCoord 1337 (primed ([1, 0].map (BitVec.ofInt 32))) := by decide

end FastNoise.Lattice
