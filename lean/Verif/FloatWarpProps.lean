import Verif.FloatWarpLemmas
import Verif.FractalProps
/-!
# C67: the gradient domain warp in binary32 arithmetic

Every operation rounded, on SIMD levels with and without fused multiply-add (`L`).  The exact warp is `Fractal.axisWarp` (C29), per axis within [-1, 1].  `Rep x` says that `x` is a binary32 number.
-/
namespace FastNoise.F32
open FastNoise.Hash FastNoise.Num FastNoise.Basic FastNoise.Lattice

noncomputable section

/-- **C67.** Per axis the computed warp differs from the exact one at the same scaled position by at most 220/2^25 (less than 6.6e-6), and so leaves [-1, 1] by no more. -/
theorem C67_axis_err (L : Level) (seed : I32) (x : Pos) (k : Nat) (hn : x.length ≤ 4) :
    |axisWarp L seed x k - Fractal.axisWarp seed x k| ≤ 220 / 2 ^ 25 ∧ |axisWarp L seed x k| ≤ 1 + 220 / 2 ^ 25 := by
  have h := axisWarp_err L seed x k hn
  have e : 220 * U = 220 / 2 ^ 25 := by unfold U; ring
  rw [e] at h
  refine ⟨h, ?_⟩
  have h1 := Fractal.axisWarp_range seed x k
  have := abs_add_le (axisWarp L seed x k - Fractal.axisWarp seed x k) (Fractal.axisWarp seed x k)
  rw [sub_add_cancel] at this
  linarith

/-- **C67.** Levels with and without fused multiply-add move a position by nearly the same. -/
theorem C67_levels (L L' : Level) (seed : I32) (x : Pos) (k : Nat) (hn : x.length ≤ 4) : |axisWarp L seed x k - axisWarp L' seed x k| ≤ 440 / 2 ^ 25 := by
  have a := abs_le.mp (C67_axis_err L seed x k hn).1
  have b := abs_le.mp (C67_axis_err L' seed x k hn).1
  rw [abs_le]; constructor <;> linarith

/-- **C67.** An axis with amplitude 0, or scaled by 0, is not moved at all: the coordinate keeps its bits. -/
theorem C67_zero (L : Level) (seed : I32) (axisScale : Nat → ℝ) (amp : ℝ) (x out : Pos) (k : Nat) (hk : k < out.length) (hr : Rep out[k]) (h : amp = 0 ∨ axisScale k = 0) :
    (warpOut L seed axisScale amp x out)[k]? = some out[k] := by
  have hz : mul amp (axisScale k) = 0 := by unfold mul; rcases h with h | h <;> simp [h, fl_zero]
  unfold warpOut
  rw [List.getElem?_mapIdx, List.getElem?_eq_getElem hk, Option.map_some, hz]
  congr 1
  unfold fma mul add
  split <;> simp [fl_zero, fl_rep hr]

/-- **C67.** A gradient warp of amplitude 0 is its source, bit for bit. -/
theorem C67_zero_amplitude (L : Level) (off : I32) (axisScale : Nat → ℝ) (scale : ℝ) (amplitude source : Src) (seed : I32) (pos : Pos) (hr : ∀ p ∈ pos, Rep p) (h : amplitude seed pos = 0) :
    domainWarp L off axisScale scale amplitude source seed pos = source seed pos := by
  unfold domainWarp
  simp only [h]
  congr 1
  apply List.ext_getElem?
  intro k
  by_cases hk : k < pos.length
  · rw [C67_zero L _ axisScale 0 _ pos k hk (hr _ (List.getElem_mem hk)) (Or.inl rfl), List.getElem?_eq_getElem hk]
  · rw [List.getElem?_eq_none (by simp [warpOut]; omega), List.getElem?_eq_none (by omega)]

theorem move_err (L : Level) {w W A o : ℝ} {i j : ℤ} (hi : -100 ≤ i) (hij : i ≤ j) (hw : |w - W| ≤ 220 * U) (hW : |W| ≤ 1) (hA : |A| ≤ 2 ^ i) (ho : |o| ≤ 2 ^ j) :
    |fma L w A o - (o + A * W)| ≤ (222 * 2 ^ i + 4 * 2 ^ j) * U := by
  have hU := U_pos
  have hU' := U_small
  have hpi := two_zpow_pos i
  have hpj := two_zpow_pos j
  have hle : (2 : ℝ) ^ i ≤ 2 ^ j := zpow_le_zpow_right₀ (by norm_num) hij
  have hw1 : |w| ≤ 1.01 := by
    have := abs_add_le (w - W) W
    rw [sub_add_cancel] at this
    linarith
  have hd : |w * A - A * W| ≤ 220 * U * 2 ^ i := by
    rw [show w * A - A * W = (w - W) * A by ring, abs_mul]
    exact mul_le_mul hw hA (abs_nonneg _) (by linarith)
  have hp : |w * A| ≤ 1.01 * 2 ^ i := by rw [abs_mul]; exact mul_le_mul hw1 hA (abs_nonneg _) (by norm_num)
  have hd' := abs_le.mp hd
  have hp' := abs_le.mp hp
  have ho' := abs_le.mp ho
  have e1 : (2 : ℝ) ^ (i + 1) = 2 * 2 ^ i := by rw [zpow_add₀ (by norm_num)]; norm_num; ring
  have e2 : (2 : ℝ) ^ (j + 2) = 4 * 2 ^ j := by rw [zpow_add₀ (by norm_num)]; norm_num; ring
  have f1 : (2 : ℝ) ^ (i + 1 - 25) = 2 * 2 ^ i * U := by rw [zpow_sub₀ (by norm_num), e1]; unfold U; norm_num; ring
  have f2 : (2 : ℝ) ^ (j + 2 - 25) = 4 * 2 ^ j * U := by rw [zpow_sub₀ (by norm_num), e2]; unfold U; norm_num; ring
  have r2 : ∀ y : ℝ, |y| ≤ 4 * 2 ^ j → |fl y - y| ≤ 4 * 2 ^ j * U := by
    intro y hy
    rw [← f2]; exact fl_err_le (by omega) (by rw [e2]; exact hy)
  unfold fma; split
  · have := abs_le.mp (r2 (w * A + o) (by rw [abs_le]; constructor <;> linarith))
    rw [abs_le]; constructor <;> nlinarith [mul_pos hpi hU]
  · have r1 := fl_err_le (x := w * A) (k := i + 1) (by omega) (by rw [e1]; linarith)
    rw [f1] at r1
    have r1' := abs_le.mp r1
    have hsm : 2 * 2 ^ i * U ≤ 0.01 * 2 ^ i := by nlinarith
    have := abs_le.mp (r2 (mul w A + o) (by unfold mul; rw [abs_le]; constructor <;> linarith))
    unfold add mul at *
    rw [abs_le]; constructor <;> nlinarith [mul_pos hpi hU]

/-- **C67.** The moved position: with an amplitude (times axis scale, as computed) of at most `2^i` and coordinates of at most `2^j`, the result differs from the exactly moved position by at most
222/2^25 of the amplitude bound plus 4/2^25 of the coordinate bound; so it moves by at most the amplitude and that. -/
theorem C67_position (L : Level) (seed : I32) (axisScale : Nat → ℝ) (amp : ℝ) (x out : Pos) (k : Nat) (hk : k < out.length) (hn : x.length ≤ 4) {i j : ℤ} (hi : -100 ≤ i) (hij : i ≤ j)
    (hA : |mul amp (axisScale k)| ≤ 2 ^ i) (ho : |out[k]| ≤ 2 ^ j) :
    ∃ y, (warpOut L seed axisScale amp x out)[k]? = some y ∧ |y - (out[k] + mul amp (axisScale k) * Fractal.axisWarp seed x k)| ≤ (222 * 2 ^ i + 4 * 2 ^ j) / 2 ^ 25 ∧
      |y - out[k]| ≤ |mul amp (axisScale k)| + (222 * 2 ^ i + 4 * 2 ^ j) / 2 ^ 25 := by
  have h := move_err L hi hij (axisWarp_err L seed x k hn) (Fractal.axisWarp_range seed x k) hA ho
  have e : (222 * 2 ^ i + 4 * 2 ^ j) * U = (222 * 2 ^ i + 4 * 2 ^ j) / 2 ^ 25 := by unfold U; ring
  rw [e] at h
  refine ⟨_, by unfold warpOut; rw [List.getElem?_mapIdx, List.getElem?_eq_getElem hk, Option.map_some], h, ?_⟩
  have hw := mul_le_mul_of_nonneg_left (Fractal.axisWarp_range seed x k) (abs_nonneg (mul amp (axisScale k)))
  rw [← abs_mul, mul_one] at hw
  set y := fma L (axisWarp L seed x k) (mul amp (axisScale k)) out[k]
  have := abs_add_le (y - (out[k] + mul amp (axisScale k) * Fractal.axisWarp seed x k)) (mul amp (axisScale k) * Fractal.axisWarp seed x k)
  rw [show y - (out[k] + mul amp (axisScale k) * Fractal.axisWarp seed x k) + mul amp (axisScale k) * Fractal.axisWarp seed x k = y - out[k] by ring] at this
  linarith

/-- **C67.** What a domain warp node returns: its source, called with the user's seed, at the moved position.  The warp is that of the user's seed plus twice the seed offset (the offset is added by the node and by its warp, C29), taken at the scaled position, with the amplitude its amplitude source gives for the user's seed at the unmoved position.  The position differs from the exactly moved one as in
`C67_position`. -/
theorem C67_domain_warp (L : Level) (off : I32) (axisScale : Nat → ℝ) (scale : ℝ) (amplitude source : Src) (seed : I32) (pos : Pos) (hn : pos.length ≤ 4) {i j : ℤ} (hi : -100 ≤ i) (hij : i ≤ j)
    (hA : ∀ k, k < pos.length → |mul (amplitude seed pos) (axisScale k)| ≤ 2 ^ i) (ho : ∀ p ∈ pos, |p| ≤ 2 ^ j) :
    ∃ q : Pos, domainWarp L off axisScale scale amplitude source seed pos = source seed q ∧ q.length = pos.length ∧
      ∀ (k : Nat) (hk : k < pos.length) (hq : k < q.length),
        |q[k] - (pos[k] + mul (amplitude seed pos) (axisScale k) * Fractal.axisWarp (seed + 2 * off) (scalePositions (frequency scale) pos) k)| ≤ (222 * 2 ^ i + 4 * 2 ^ j) / 2 ^ 25 := by
  refine ⟨_, rfl, by simp [warpOut], fun k hk hq => ?_⟩
  obtain ⟨y, h1, h2, -⟩ := C67_position L (seed + off + off) axisScale (amplitude seed pos) (scalePositions (frequency scale) pos) pos k hk (by simpa [scalePositions] using hn) hi hij (hA k hk)
    (ho _ (List.getElem_mem hk))
  rw [List.getElem?_eq_getElem hq, Option.some.injEq] at h1
  have e : seed + 2 * off = seed + off + off := by
    rw [show (2 : I32) = 1#32 + 1#32 from rfl, BitVec.add_mul, BitVec.one_mul, BitVec.add_assoc]
  rw [h1, e]
  exact h2

/-- Non-vacuity: amplitude 50, two axes. -/
example (L : Level) (off seed : I32) (source : Src) : ∃ q : Pos, domainWarp L off (fun _ => 1) 100 (fun _ _ => 50) source seed [3, -7] = source seed q ∧ q.length = 2 ∧
    ∀ (k : Nat) (hk : k < 2) (hq : k < q.length), |q[k] - (([3, -7] : Pos)[k] + 50 * Fractal.axisWarp (seed + 2 * off) (scalePositions (frequency 100) [3, -7]) k)| ≤ 0.0005 := by
  have e : mul 50 1 = 50 := by unfold mul; rw [mul_one]; exact fl_rep ⟨50, 0, by norm_num, by norm_num, by norm_num⟩
  obtain ⟨q, h1, h2, h3⟩ := C67_domain_warp L off (fun _ => 1) 100 (fun _ _ => 50) source seed [3, -7] (by simp) (i := 6) (j := 6) (by norm_num) le_rfl
    (by intro k _; rw [e]; norm_num [abs_of_pos]) (by intro p hp; simp at hp; rcases hp with rfl | rfl <;> norm_num [abs_of_pos, abs_of_neg])
  refine ⟨q, h1, h2, fun k hk hq => ?_⟩
  have := h3 k hk hq
  rw [e] at this
  exact this.trans (by norm_num)

/-! ## Warp fractals -/

/-- A run of a warp fractal with every operation rounded: `P i`, `A i`, `F i` are position, amplitude and frequency before octave `i`. -/
structure FRun (L : Level) (len : ℝ → ℝ) (gain ws lacunarity : ℝ) (independent : Bool) (off : I32) (axisScale : Nat → ℝ) (seed : I32) (pos : Pos) (F A : Nat → ℝ) (P : Nat → Pos) : Prop where
  pos0 : P 0 = pos
  freq : ∀ i, F (i + 1) = mul (F i) lacunarity
  move : ∀ i, P (i + 1) = warpOut L (Fractal.octSeed seed i + off) axisScale (A i) (scalePositions (F i) (if independent then pos else P i)) (P i)
  /-- the amplitude falls with the gain and, by the weighted strength, with the length of the last warp vector -/
  amp : ∀ i, A (i + 1) = mul (mul (A i) (lerp L 1 (sub 1 (len (warp L off axisScale (Fractal.octSeed seed i) (A i) (scalePositions (F i) (if independent then pos else P i)) (P i)).2)) ws)) gain

theorem warpLoop_run (L : Level) (len : ℝ → ℝ) (gain ws lacunarity : ℝ) (ind : Bool) (off : I32) (axisScale : Nat → ℝ) (seed : I32) (pos : Pos) (F A : Nat → ℝ) (P : Nat → Pos) (S : Nat → ℝ)
    (hF : ∀ i, F (i + 1) = mul (F i) lacunarity) (hA : ∀ i, A (i + 1) = mul (mul (A i) (lerp L 1 (sub 1 (len (S i))) ws)) gain)
    (hW : ∀ i, (P (i + 1), S i) = warp L off axisScale (Fractal.octSeed seed i) (A i) (scalePositions (F i) ((if ind then some pos else none).getD (P i))) (P i)) (n : Nat) : ∀ i,
    warpLoop L len off axisScale gain ws lacunarity (if ind then some pos else none) n (Fractal.octSeed seed i) (F i) (A i) (P (i + 1), S i) = P (i + 1 + n) := by
  induction n with
  | zero => intro i; rfl
  | succ n ih =>
    intro i
    rw [warpLoop]
    simp only [Fractal.octSeed_succ, ← hF, ← hA, ← hW]
    rw [ih (i + 1)]
    congr 1; omega

/-- **C67.** Both warp fractals return their source, with the caller's seed, at the end of a run: octave `i` warps with seed + i + seed offset at frequency × lacunarity^i (rounded). -/
theorem C67_fractal_run (L : Level) (len : ℝ → ℝ) (c : Fractal.Cfg) (independent : Bool) (off : I32) (axisScale : Nat → ℝ) (scale : ℝ) (amplitude source : Src) (seed : I32) (pos : Pos) :
    ∃ F A P, FRun L len (c.gain seed pos) (c.weightedStrength seed pos) c.lacunarity independent off axisScale seed pos F A P ∧ F 0 = frequency scale ∧ A 0 = amplitude seed pos ∧
      warpFractal L len c independent off axisScale scale amplitude source seed pos = source seed (P ((c.octaves - 1).toNat + 1)) := by
  let st : Nat → (ℝ × ℝ) × Pos := fun i => Nat.rec ((frequency scale, amplitude seed pos), pos) (fun i s =>
    let w := warp L off axisScale (Fractal.octSeed seed i) s.1.2 (scalePositions s.1.1 ((if independent then some pos else none).getD s.2)) s.2
    ((mul s.1.1 c.lacunarity, mul (mul s.1.2 (lerp L 1 (sub 1 (len w.2)) (c.weightedStrength seed pos))) (c.gain seed pos)), w.1)) i
  let S : Nat → ℝ := fun i => (warp L off axisScale (Fractal.octSeed seed i) (st i).1.2 (scalePositions (st i).1.1 ((if independent then some pos else none).getD (st i).2)) (st i).2).2
  refine ⟨fun i => (st i).1.1, fun i => (st i).1.2, fun i => (st i).2, ⟨rfl, fun i => rfl, fun i => ?_, fun i => ?_⟩, rfl, rfl, ?_⟩
  · cases independent <;> rfl
  · cases independent <;> rfl
  · unfold warpFractal
    simp only
    congr 1
    have h := warpLoop_run L len (c.gain seed pos) (c.weightedStrength seed pos) c.lacunarity independent off axisScale seed pos (fun i => (st i).1.1) (fun i => (st i).1.2) (fun i => (st i).2) S
      (fun i => rfl) (fun i => rfl) (fun i => rfl) (c.octaves - 1).toNat 0
    rw [show 0 + 1 + (c.octaves - 1).toNat = (c.octaves - 1).toNat + 1 by omega] at h
    rw [← h]
    have h0 : Fractal.octSeed seed 0 = seed := by simp [Fractal.octSeed]
    have e : ((st (0 + 1)).2, S 0) = warp L off axisScale seed (amplitude seed pos) (scalePositions (frequency scale) pos) pos := by
      change warp L off axisScale (Fractal.octSeed seed 0) (amplitude seed pos) (scalePositions (frequency scale) ((if independent then some pos else none).getD pos)) pos = _
      rw [h0]
      cases independent <;> rfl
    rw [e, h0]
    rfl

/-- **C67.** Over `n` octaves the position ends up within `n` times the error of one octave of where the exact displacements, taken at the computed noise positions with the computed amplitudes, add up to. -/
theorem C67_fractal_position {L : Level} {len : ℝ → ℝ} {gain ws lacunarity : ℝ} {ind : Bool} {off : I32} {axisScale : Nat → ℝ} {seed : I32} {pos : Pos} {F A : Nat → ℝ} {P : Nat → Pos}
    (r : FRun L len gain ws lacunarity ind off axisScale seed pos F A P) (hn : pos.length ≤ 4) (k : Nat) (hk : k < pos.length) {i j : ℤ} (hi : -100 ≤ i) (hij : i ≤ j) (n : Nat)
    (hA : ∀ o < n, |mul (A o) (axisScale k)| ≤ 2 ^ i) (hP : ∀ o < n, |(P o).getD k 0| ≤ 2 ^ j) :
    |(P n).getD k 0 - (pos.getD k 0 + ∑ o ∈ Finset.range n, mul (A o) (axisScale k) * Fractal.axisWarp (Fractal.octSeed seed o + off) (scalePositions (F o) (if ind then pos else P o)) k)| ≤
      n * ((222 * 2 ^ i + 4 * 2 ^ j) / 2 ^ 25) := by
  have hlen : ∀ o, (P o).length = pos.length := by
    intro o
    induction o with
    | zero => rw [r.pos0]
    | succ o ih => rw [r.move, warpOut, List.length_mapIdx, ih]
  induction n with
  | zero => simp [r.pos0]
  | succ n ih =>
    have ih := ih (fun o ho => hA o (by omega)) (fun o ho => hP o (by omega))
    have hkn : k < (P n).length := by rw [hlen]; exact hk
    have hg : (P n).getD k 0 = (P n)[k] := by simp [List.getD_eq_getElem?_getD, hkn]
    obtain ⟨y, h1, h2, -⟩ := C67_position L (Fractal.octSeed seed n + off) axisScale (A n) (scalePositions (F n) (if ind then pos else P n)) (P n) k hkn
      (by have : (if ind then pos else P n).length = pos.length := by split <;> simp [hlen]
          simp [scalePositions, this]; exact hn) hi hij (hA n (by omega)) (by rw [← hg]; exact hP n (by omega))
    have hy : (P (n + 1)).getD k 0 = y := by rw [r.move, List.getD_eq_getElem?_getD, h1]; rfl
    rw [hy, Finset.sum_range_succ]
    rw [← hg] at h2
    push_cast
    have a := abs_le.mp ih
    have b := abs_le.mp h2
    rw [abs_le]; constructor <;> linarith

/-- **C67.** With weighted strength 0 and a gain within [-1, 1] no octave's amplitude exceeds that of the first, also after rounding. -/
theorem C67_amplitudes {L : Level} {len : ℝ → ℝ} {gain lacunarity : ℝ} {ind : Bool} {off : I32} {axisScale : Nat → ℝ} {seed : I32} {pos : Pos} {F A : Nat → ℝ} {P : Nat → Pos}
    (r : FRun L len gain 0 lacunarity ind off axisScale seed pos F A P) (hg : |gain| ≤ 1) (h0 : Rep (A 0)) : ∀ n, Rep (A n) ∧ |A n| ≤ |A 0|
  | 0 => ⟨h0, le_rfl⟩
  | n + 1 => by
    obtain ⟨h1, h2⟩ := C67_amplitudes r hg h0 n
    have hs := r.amp n
    rw [lerp_zero L rep_one] at hs
    have e : mul (A n) 1 = A n := by unfold mul; rw [mul_one, fl_rep h1]
    rw [e] at hs
    refine ⟨by rw [hs]; exact rep_fl _, ?_⟩
    rw [hs]
    have hb : |A n * gain| ≤ |A n| := by rw [abs_mul]; exact mul_le_of_le_one_right (abs_nonneg _) hg
    have := fl_mem (rep_neg (rep_abs h1)) (rep_abs h1) (abs_le.mp hb)
    exact (abs_le.mpr this).trans h2

/-- Hypotheses met: a position of the size of a large map, an amplitude of 30. -/
example : |mul 30 1| ≤ (2 : ℝ) ^ (5 : ℤ) ∧ |(1000 : ℝ)| ≤ 2 ^ (10 : ℤ) ∧ Rep 1000 ∧ (-100 : ℤ) ≤ 5 ∧ (5 : ℤ) ≤ 10 := by
  have h30 : mul 30 1 = 30 := by
    unfold mul; rw [mul_one]
    have := rep_intCast 30 (by norm_num); exact_mod_cast this
  refine ⟨by rw [h30]; norm_num, by norm_num, ?_, by norm_num, by norm_num⟩
  have := rep_int (n := 1000) (by norm_num); exact_mod_cast this

/-- A warp that does something: at the origin with a seed whose hash has all bits set (`Fractal.maxSeed`) the exact warp is 1 along every axis, so the computed one is near 1. -/
example (L : Level) : 0.99 ≤ axisWarp L Fractal.maxSeed [0, 0] 0 := by
  have h := (C67_axis_err L Fractal.maxSeed [0, 0] 0 (by simp)).1
  have e := Fractal.axisWarp_maxSeed 2 0 (by norm_num) (by norm_num) (by norm_num)
  have e' : Fractal.axisWarp Fractal.maxSeed [0, 0] 0 = 1 := e
  rw [e'] at h
  have := (abs_le.mp h).1
  norm_num at this ⊢
  linarith

end
end FastNoise.F32
