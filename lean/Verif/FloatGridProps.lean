import Verif.FloatGrid
import Verif.FloatNoiseProps
import Verif.GridProps
/-!
# C59: sample positions of uniform grids in binary32 arithmetic

C15 and C16 give the positions as `fma( index, step, offset )` whatever the float operations do.  Here: what these positions are, when a grid generated in pieces equals the grid generated
at once, and when it does not.
-/
namespace FastNoise.F32
open FastNoise.Hash FastNoise.Num FastNoise.Basic FastNoise.Grid

noncomputable section

/-! ## Specification -/

/-- The coordinate the library samples at index `i` along one axis: Generator.inl:104-105. -/
def samplePos (L : Level) (i : Nat) (step off : ℝ) : ℝ := fma L (fl i) step off

/-- Along one axis, everything is a multiple of `2^e` and small enough for 24 bits: the step, the offset, and the positions of the first `X` samples. -/
def AxisOnGrid (e : ℤ) (X : Nat) (step off : ℝ) : Prop :=
  -149 ≤ e ∧ X ≤ 2 ^ 24 ∧ ∃ s o : ℤ, step = s * 2 ^ e ∧ off = o * 2 ^ e ∧ ∀ i : Nat, i < X → |i * s| ≤ 2 ^ 24 ∧ |o + i * s| ≤ 2 ^ 24

/-! ## Positions -/

theorem opsF_fma (L : Level) (c s : EReal → EReal) (i : Nat) (step off : ℝ) :
    (opsF L c s).fma ((opsF L c s).conv i) (step : ℝ) (off : ℝ) = ((samplePos L i step off : ℝ) : EReal) := by
  simp only [opsF, samplePos]
  rw [if_neg (by simp)]
  simp

/-- **C59**: the samples of a 2D grid, for every register width, level and node. -/
theorem C59_grid2D (N : Nat) (hN : 0 < N) (L : Level) (c s : EReal → EReal) (src : Src) (seed : I32) (buf : List EReal) (xOff yOff xStep yStep : ℝ)
    (X Y : Nat) (hX : 0 < X) (hY : 0 < Y) (hint : X * Y < 2 ^ 31) (hbuf : X * Y ≤ buf.length) :
    ∃ f, BatchResult (genUniformGrid2D N hN (opsF L c s) (gen2 src seed) buf xOff yOff X Y xStep yStep) buf (X * Y) f ∧
      ∀ x y, x < X → y < Y → f (y * X + x) = ((src seed [samplePos L x xStep xOff, samplePos L y yStep yOff] : ℝ) : EReal) := by
  obtain ⟨f, h, e⟩ := C15_C16_grid2D N hN (opsF L c s) (gen2 src seed) buf xOff yOff X Y hX hY hint hbuf xStep yStep
  refine ⟨f, h, fun x y hx hy => ?_⟩
  rw [e x y hx hy, opsF_fma, opsF_fma]
  simp [gen2]

/-- **C59**: the samples of a 3D grid. -/
theorem C59_grid3D (N : Nat) (hN : 0 < N) (L : Level) (c s : EReal → EReal) (src : Src) (seed : I32) (buf : List EReal) (xOff yOff zOff xStep yStep zStep : ℝ)
    (X Y Z : Nat) (hX : 0 < X) (hY : 0 < Y) (hZ : 0 < Z) (hint : X * Y * Z < 2 ^ 31) (hbuf : X * Y * Z ≤ buf.length) :
    ∃ f, BatchResult (genUniformGrid3D N hN (opsF L c s) (gen3 src seed) buf xOff yOff zOff X Y Z xStep yStep zStep) buf (X * Y * Z) f ∧
      ∀ x y z, x < X → y < Y → z < Z →
        f ((z * Y + y) * X + x) = ((src seed [samplePos L x xStep xOff, samplePos L y yStep yOff, samplePos L z zStep zOff] : ℝ) : EReal) := by
  obtain ⟨f, h, e⟩ := C15_C16_grid3D N hN (opsF L c s) (gen3 src seed) buf xOff yOff zOff X Y Z hX hY hZ hint hbuf xStep yStep zStep
  refine ⟨f, h, fun x y z hx hy hz => ?_⟩
  rw [e x y z hx hy hz, opsF_fma, opsF_fma, opsF_fma]
  simp [gen3]

/-- **C59**: the samples of a 4D grid. -/
theorem C59_grid4D (N : Nat) (hN : 0 < N) (L : Level) (c s : EReal → EReal) (src : Src) (seed : I32) (buf : List EReal)
    (xOff yOff zOff wOff xStep yStep zStep wStep : ℝ) (X Y Z W : Nat) (hX : 0 < X) (hY : 0 < Y) (hZ : 0 < Z) (hW : 0 < W) (hint : X * Y * Z * W < 2 ^ 31)
    (hbuf : X * Y * Z * W ≤ buf.length) :
    ∃ f, BatchResult (genUniformGrid4D N hN (opsF L c s) (gen4 src seed) buf xOff yOff zOff wOff X Y Z W xStep yStep zStep wStep) buf (X * Y * Z * W) f ∧
      ∀ x y z w, x < X → y < Y → z < Z → w < W → f (((w * Z + z) * Y + y) * X + x) =
        ((src seed [samplePos L x xStep xOff, samplePos L y yStep yOff, samplePos L z zStep zOff, samplePos L w wStep wOff] : ℝ) : EReal) := by
  obtain ⟨f, h, e⟩ := C15_C16_grid4D N hN (opsF L c s) (gen4 src seed) buf xOff yOff zOff wOff X Y Z W hX hY hZ hW hint hbuf xStep yStep zStep wStep
  refine ⟨f, h, fun x y z w hx hy hz hw => ?_⟩
  rw [e x y z w hx hy hz hw, opsF_fma, opsF_fma, opsF_fma, opsF_fma]
  simp [gen4]

theorem fl_nat {i : Nat} (h : i ≤ 2 ^ 24) : fl (i : ℝ) = i := by
  have := fl_rep (rep_int (n := (i : ℤ)) (by rw [abs_of_nonneg (by omega)]; exact_mod_cast h))
  push_cast at this; exact this

/-- **C59**: on a binary grid the sample positions are exactly `offset + index * step`, at every SIMD level. -/
theorem C59_positions_exact {e : ℤ} {X : Nat} {step off : ℝ} (h : AxisOnGrid e X step off) (L : Level) {i : Nat} (hi : i < X) :
    samplePos L i step off = off + i * step := by
  obtain ⟨he, hX, s, o, hs, ho, hb⟩ := h
  obtain ⟨b1, b2⟩ := hb i hi
  have r1 : Rep ((i : ℝ) * step) := ⟨i * s, e, b1, he, by rw [hs]; push_cast; ring⟩
  have r2 : Rep ((i : ℝ) * step + off) := ⟨o + i * s, e, b2, he, by rw [hs, ho]; push_cast; ring⟩
  unfold samplePos fma add mul
  rw [fl_nat (by omega), fl_rep r1, fl_rep r2]
  simp [add_comm]

/-- Non-vacuity: a million samples with step 0.25 from -1000.5. -/
example : AxisOnGrid (-2) 1000000 0.25 (-1000.5) := by
  refine ⟨by norm_num, by norm_num, 1, -4002, by norm_num, by norm_num, fun i hi => ?_⟩
  rw [abs_le, abs_le]
  omega

/-- **C59**: the sample positions never go backwards, whatever step, offset and level. -/
theorem C59_positions_monotone (L : Level) (step off : ℝ) (hs : 0 ≤ step) {i j : Nat} (h : i ≤ j) : samplePos L i step off ≤ samplePos L j step off := by
  have h1 : fl (i : ℝ) ≤ fl (j : ℝ) := fl_mono (by exact_mod_cast h)
  have h2 : fl (i : ℝ) * step ≤ fl (j : ℝ) * step := mul_le_mul_of_nonneg_right h1 hs
  unfold samplePos fma
  split
  · exact fl_mono (by linarith)
  · exact fl_mono (add_le_add (fl_mono h2) le_rfl)

/-- **C59**: the sample position is `offset + index * step` up to `3 * 2^-25` of a power of two that bounds offset, extent and position. -/
theorem C59_positions_near (L : Level) {k : ℤ} (hk : -125 ≤ k) (step off : ℝ) {i : Nat} (hi : i ≤ 2 ^ 24) (h1 : |i * step| ≤ 2 ^ k) (h2 : |off + i * step| ≤ 2 ^ k) :
    |samplePos L i step off - (off + i * step)| ≤ 3 * 2 ^ (k - 25) := by
  have hp := two_zpow_pos (k - 25)
  have hpk : (2 : ℝ) ^ k = 2 ^ (k - 25) * 2 ^ 25 := by
    rw [← zpow_natCast, ← zpow_add₀ (by norm_num)]; congr 1; push_cast; ring
  have e1 := fl_err_le hk h1
  have e2 := fl_err_le hk h2
  unfold samplePos fma
  rw [fl_nat hi]
  split
  · rw [add_comm (_ * _) off]; linarith
  · unfold add mul
    -- the sum of the rounded product and the offset
    have a1 := abs_le.mp e1
    have a2 := abs_le.mp h2
    have hk1 : (2 : ℝ) ^ (k + 1 - 25) = 2 * 2 ^ (k - 25) := by
      rw [show k + 1 - 25 = (k - 25) + 1 by ring, zpow_add₀ (by norm_num), zpow_one]; ring
    have e3 := fl_err_le (x := fl (i * step) + off) (k := k + 1) (by omega) (by
      rw [zpow_add₀ (by norm_num), zpow_one, abs_le]
      constructor <;> linarith)
    rw [hk1] at e3
    have a3 := abs_le.mp e3
    rw [abs_le]; constructor <;> linarith

/-- Non-vacuity: step 0.1f from 0, the thousandth sample, everything below 128. -/
example : |((1000 : Nat) : ℝ) * (13421773 * 2 ^ (-27 : ℤ))| ≤ 2 ^ (7 : ℤ) ∧ |0 + ((1000 : Nat) : ℝ) * (13421773 * 2 ^ (-27 : ℤ))| ≤ 2 ^ (7 : ℤ) := by
  norm_num [abs_le]

/-! ## Generating in pieces -/

theorem axis_shift {e : ℤ} {X : Nat} {step off : ℝ} (h : AxisOnGrid e X step off) {c w : Nat} (hw : c + w ≤ X) :
    AxisOnGrid e w step (off + c * step) := by
  obtain ⟨he, hX, s, o, hs, ho, hb⟩ := h
  refine ⟨he, by omega, s, o + c * s, hs, by rw [ho, hs]; push_cast; ring, fun i hi => ⟨?_, ?_⟩⟩
  · exact (hb i (by omega)).1
  · have := (hb (c + i) (by omega)).2
    push_cast at this
    rw [show o + c * s + i * s = o + (c + i) * s by ring]; exact this

/-- **C59**: a grid generated in pieces is the grid generated at once.  On binary grids, the piece that starts at sample (cx, cy), generated with the offsets of that sample, has the same values as the
part of the whole grid, whatever the register widths and levels of the two calls. -/
theorem C59_pieces2D (N N' : Nat) (hN : 0 < N) (hN' : 0 < N') (L L' : Level) (c s : EReal → EReal) (src : Src) (seed : I32) (buf buf' : List EReal) {e e' : ℤ}
    (xOff yOff xStep yStep : ℝ) (X Y : Nat) (hint : X * Y < 2 ^ 31) (hbuf : X * Y ≤ buf.length)
    (hx : AxisOnGrid e X xStep xOff) (hy : AxisOnGrid e' Y yStep yOff)
    (cx cy w h : Nat) (hw0 : 0 < w) (hh0 : 0 < h) (hw : cx + w ≤ X) (hh : cy + h ≤ Y) (hbuf' : w * h ≤ buf'.length) :
    ∃ whole piece m m', genUniformGrid2D N hN (opsF L c s) (gen2 src seed) buf xOff yOff X Y xStep yStep = .ok (whole, m) ∧
      genUniformGrid2D N' hN' (opsF L' c s) (gen2 src seed) buf' ((xOff + cx * xStep : ℝ)) ((yOff + cy * yStep : ℝ)) w h xStep yStep = .ok (piece, m') ∧
      ∀ x y, x < w → y < h → piece[y * w + x]? = whole[(cy + y) * X + (cx + x)]? ∧
        piece[y * w + x]? = some ((src seed [xOff + ((cx + x : Nat) : ℝ) * xStep, yOff + ((cy + y : Nat) : ℝ) * yStep] : ℝ) : EReal) := by
  have hX : 0 < X := by omega
  have hY : 0 < Y := by omega
  have hle : w * h ≤ X * Y := Nat.mul_le_mul (by omega) (by omega)
  obtain ⟨f, ⟨out, m, r1, r2, r3, -⟩, hf⟩ := C59_grid2D N hN L c s src seed buf xOff yOff xStep yStep X Y hX hY hint hbuf
  obtain ⟨g, ⟨out', m', q1, q2, q3, -⟩, hg⟩ := C59_grid2D N' hN' L' c s src seed buf' (xOff + cx * xStep) (yOff + cy * yStep) xStep yStep w h hw0 hh0 (by omega) hbuf'
  have hx' : AxisOnGrid e w xStep (xOff + cx * xStep) := axis_shift hx hw
  have hy' : AxisOnGrid e' h yStep (yOff + cy * yStep) := axis_shift hy hh
  refine ⟨out, out', m, m', r1, q1, fun x y hxw hyh => ?_⟩
  have i1 : y * w + x < w * h := by
    calc y * w + x < y * w + w := by omega
      _ = (y + 1) * w := by ring
      _ ≤ h * w := Nat.mul_le_mul_right _ (by omega)
      _ = w * h := by ring
  have i2 : (cy + y) * X + (cx + x) < X * Y := by
    calc (cy + y) * X + (cx + x) < (cy + y) * X + X := by omega
      _ = (cy + y + 1) * X := by ring
      _ ≤ Y * X := Nat.mul_le_mul_right _ (by omega)
      _ = X * Y := by ring
  have key : samplePos L' x xStep (xOff + cx * xStep) = xOff + ((cx + x : Nat) : ℝ) * xStep := by
    rw [C59_positions_exact hx' L' hxw]; push_cast; ring
  have key2 : samplePos L' y yStep (yOff + cy * yStep) = yOff + ((cy + y : Nat) : ℝ) * yStep := by
    rw [C59_positions_exact hy' L' hyh]; push_cast; ring
  have v : out'[y * w + x]? = some ((src seed [xOff + ((cx + x : Nat) : ℝ) * xStep, yOff + ((cy + y : Nat) : ℝ) * yStep] : ℝ) : EReal) := by
    rw [q3 _ i1, hg x y hxw hyh, key, key2]
  refine ⟨?_, v⟩
  rw [v, r3 _ i2, hf (cx + x) (cy + y) (by omega) (by omega), C59_positions_exact hx L (by omega), C59_positions_exact hy L (by omega)]

/-- **C59**: the same in 3D. -/
theorem C59_pieces3D (N N' : Nat) (hN : 0 < N) (hN' : 0 < N') (L L' : Level) (c s : EReal → EReal) (src : Src) (seed : I32) (buf buf' : List EReal) {e e' e'' : ℤ}
    (xOff yOff zOff xStep yStep zStep : ℝ) (X Y Z : Nat) (hint : X * Y * Z < 2 ^ 31) (hbuf : X * Y * Z ≤ buf.length)
    (hx : AxisOnGrid e X xStep xOff) (hy : AxisOnGrid e' Y yStep yOff) (hz : AxisOnGrid e'' Z zStep zOff)
    (cx cy cz w h d : Nat) (hw0 : 0 < w) (hh0 : 0 < h) (hd0 : 0 < d) (hw : cx + w ≤ X) (hh : cy + h ≤ Y) (hd : cz + d ≤ Z) (hbuf' : w * h * d ≤ buf'.length) :
    ∃ whole piece m m', genUniformGrid3D N hN (opsF L c s) (gen3 src seed) buf xOff yOff zOff X Y Z xStep yStep zStep = .ok (whole, m) ∧
      genUniformGrid3D N' hN' (opsF L' c s) (gen3 src seed) buf' ((xOff + cx * xStep : ℝ)) ((yOff + cy * yStep : ℝ)) ((zOff + cz * zStep : ℝ)) w h d xStep yStep zStep = .ok (piece, m') ∧
      ∀ x y z, x < w → y < h → z < d → piece[(z * h + y) * w + x]? = whole[((cz + z) * Y + (cy + y)) * X + (cx + x)]? ∧
        piece[(z * h + y) * w + x]? = some ((src seed [xOff + ((cx + x : Nat) : ℝ) * xStep, yOff + ((cy + y : Nat) : ℝ) * yStep, zOff + ((cz + z : Nat) : ℝ) * zStep] : ℝ) : EReal) := by
  have hX : 0 < X := by omega
  have hY : 0 < Y := by omega
  have hZ : 0 < Z := by omega
  have hle : w * h * d ≤ X * Y * Z := Nat.mul_le_mul (Nat.mul_le_mul (by omega) (by omega)) (by omega)
  obtain ⟨f, ⟨out, m, r1, r2, r3, -⟩, hf⟩ := C59_grid3D N hN L c s src seed buf xOff yOff zOff xStep yStep zStep X Y Z hX hY hZ hint hbuf
  obtain ⟨g, ⟨out', m', q1, q2, q3, -⟩, hg⟩ := C59_grid3D N' hN' L' c s src seed buf' (xOff + cx * xStep) (yOff + cy * yStep) (zOff + cz * zStep) xStep yStep zStep w h d
    hw0 hh0 hd0 (by omega) hbuf'
  have bound : ∀ {A B C a b c : Nat}, a < A → b < B → c < C → (c * B + b) * A + a < A * B * C := by
    intro A B C a b c ha hb hc
    have h1 : c * B + b + 1 ≤ C * B := by
      calc c * B + b + 1 ≤ c * B + B := by omega
        _ = (c + 1) * B := by ring
        _ ≤ C * B := Nat.mul_le_mul_right _ (by omega)
    calc (c * B + b) * A + a < (c * B + b) * A + A := by omega
      _ = (c * B + b + 1) * A := by ring
      _ ≤ C * B * A := Nat.mul_le_mul_right _ h1
      _ = A * B * C := by ring
  refine ⟨out, out', m, m', r1, q1, fun x y z hxw hyh hzd => ?_⟩
  have v : out'[(z * h + y) * w + x]? = some ((src seed [xOff + ((cx + x : Nat) : ℝ) * xStep, yOff + ((cy + y : Nat) : ℝ) * yStep, zOff + ((cz + z : Nat) : ℝ) * zStep] : ℝ) : EReal) := by
    rw [q3 _ (bound hxw hyh hzd), hg x y z hxw hyh hzd, C59_positions_exact (axis_shift hx hw) L' hxw, C59_positions_exact (axis_shift hy hh) L' hyh,
      C59_positions_exact (axis_shift hz hd) L' hzd]
    rw [show xOff + cx * xStep + x * xStep = xOff + ((cx + x : Nat) : ℝ) * xStep by push_cast; ring,
      show yOff + cy * yStep + y * yStep = yOff + ((cy + y : Nat) : ℝ) * yStep by push_cast; ring,
      show zOff + cz * zStep + z * zStep = zOff + ((cz + z : Nat) : ℝ) * zStep by push_cast; ring]
  refine ⟨?_, v⟩
  rw [v, r3 _ (bound (by omega) (by omega) (by omega)), hf (cx + x) (cy + y) (cz + z) (by omega) (by omega) (by omega), C59_positions_exact hx L (by omega),
    C59_positions_exact hy L (by omega), C59_positions_exact hz L (by omega)]

/-- **C59**: the same in 4D. -/
theorem C59_pieces4D (N N' : Nat) (hN : 0 < N) (hN' : 0 < N') (L L' : Level) (c s : EReal → EReal) (src : Src) (seed : I32) (buf buf' : List EReal) {e₁ e₂ e₃ e₄ : ℤ}
    (xOff yOff zOff wOff xStep yStep zStep wStep : ℝ) (X Y Z W : Nat) (hint : X * Y * Z * W < 2 ^ 31) (hbuf : X * Y * Z * W ≤ buf.length)
    (hx : AxisOnGrid e₁ X xStep xOff) (hy : AxisOnGrid e₂ Y yStep yOff) (hz : AxisOnGrid e₃ Z zStep zOff) (hw : AxisOnGrid e₄ W wStep wOff)
    (cx cy cz cw w h d k : Nat) (hw0 : 0 < w) (hh0 : 0 < h) (hd0 : 0 < d) (hk0 : 0 < k) (hcx : cx + w ≤ X) (hcy : cy + h ≤ Y) (hcz : cz + d ≤ Z) (hcw : cw + k ≤ W)
    (hbuf' : w * h * d * k ≤ buf'.length) :
    ∃ whole piece m m', genUniformGrid4D N hN (opsF L c s) (gen4 src seed) buf xOff yOff zOff wOff X Y Z W xStep yStep zStep wStep = .ok (whole, m) ∧
      genUniformGrid4D N' hN' (opsF L' c s) (gen4 src seed) buf' ((xOff + cx * xStep : ℝ)) ((yOff + cy * yStep : ℝ)) ((zOff + cz * zStep : ℝ)) ((wOff + cw * wStep : ℝ))
        w h d k xStep yStep zStep wStep = .ok (piece, m') ∧
      ∀ x y z u, x < w → y < h → z < d → u < k →
        piece[((u * d + z) * h + y) * w + x]? = whole[(((cw + u) * Z + (cz + z)) * Y + (cy + y)) * X + (cx + x)]? ∧
        piece[((u * d + z) * h + y) * w + x]? = some ((src seed [xOff + ((cx + x : Nat) : ℝ) * xStep, yOff + ((cy + y : Nat) : ℝ) * yStep,
          zOff + ((cz + z : Nat) : ℝ) * zStep, wOff + ((cw + u : Nat) : ℝ) * wStep] : ℝ) : EReal) := by
  have hX : 0 < X := by omega
  have hY : 0 < Y := by omega
  have hZ : 0 < Z := by omega
  have hW : 0 < W := by omega
  have hle : w * h * d * k ≤ X * Y * Z * W := Nat.mul_le_mul (Nat.mul_le_mul (Nat.mul_le_mul (by omega) (by omega)) (by omega)) (by omega)
  obtain ⟨f, ⟨out, m, r1, r2, r3, -⟩, hf⟩ := C59_grid4D N hN L c s src seed buf xOff yOff zOff wOff xStep yStep zStep wStep X Y Z W hX hY hZ hW hint hbuf
  obtain ⟨g, ⟨out', m', q1, q2, q3, -⟩, hg⟩ := C59_grid4D N' hN' L' c s src seed buf' (xOff + cx * xStep) (yOff + cy * yStep) (zOff + cz * zStep) (wOff + cw * wStep)
    xStep yStep zStep wStep w h d k hw0 hh0 hd0 hk0 (by omega) hbuf'
  have step : ∀ {A M a n : Nat}, a < A → n < M → n * A + a < A * M := by
    intro A M a n ha hn
    calc n * A + a < n * A + A := by omega
      _ = (n + 1) * A := by ring
      _ ≤ M * A := Nat.mul_le_mul_right _ (by omega)
      _ = A * M := by ring
  have bound : ∀ {A B C D a b c d : Nat}, a < A → b < B → c < C → d < D → ((d * C + c) * B + b) * A + a < A * B * C * D := by
    intro A B C D a b c d ha hb hc hd
    have h1 := step ha (step hb (step hc hd))
    calc _ < A * (B * (C * D)) := h1
      _ = A * B * C * D := by ring
  refine ⟨out, out', m, m', r1, q1, fun x y z u hxw hyh hzd huk => ?_⟩
  have v : out'[((u * d + z) * h + y) * w + x]? = some ((src seed [xOff + ((cx + x : Nat) : ℝ) * xStep, yOff + ((cy + y : Nat) : ℝ) * yStep,
      zOff + ((cz + z : Nat) : ℝ) * zStep, wOff + ((cw + u : Nat) : ℝ) * wStep] : ℝ) : EReal) := by
    rw [q3 _ (bound hxw hyh hzd huk), hg x y z u hxw hyh hzd huk, C59_positions_exact (axis_shift hx hcx) L' hxw, C59_positions_exact (axis_shift hy hcy) L' hyh,
      C59_positions_exact (axis_shift hz hcz) L' hzd, C59_positions_exact (axis_shift hw hcw) L' huk]
    rw [show xOff + cx * xStep + x * xStep = xOff + ((cx + x : Nat) : ℝ) * xStep by push_cast; ring,
      show yOff + cy * yStep + y * yStep = yOff + ((cy + y : Nat) : ℝ) * yStep by push_cast; ring,
      show zOff + cz * zStep + z * zStep = zOff + ((cz + z : Nat) : ℝ) * zStep by push_cast; ring,
      show wOff + cw * wStep + u * wStep = wOff + ((cw + u : Nat) : ℝ) * wStep by push_cast; ring]
  refine ⟨?_, v⟩
  rw [v, r3 _ (bound (by omega) (by omega) (by omega) (by omega)), hf (cx + x) (cy + y) (cz + z) (cw + u) (by omega) (by omega) (by omega) (by omega),
    C59_positions_exact hx L (by omega), C59_positions_exact hy L (by omega), C59_positions_exact hz L (by omega), C59_positions_exact hw L (by omega)]

/-- Non-vacuity: a grid of 64 by 48 samples with step 0.5 from (-3, 100), and its last 16 by 16 samples. -/
example : AxisOnGrid (-1) 64 0.5 (-3) ∧ AxisOnGrid (-1) 48 0.5 100 ∧ 48 + 16 ≤ 64 ∧ 32 + 16 ≤ 48 := by
  refine ⟨⟨by norm_num, by norm_num, 1, -6, by norm_num, by norm_num, fun i hi => ?_⟩, ⟨by norm_num, by norm_num, 1, 200, by norm_num, by norm_num, fun i hi => ?_⟩, by norm_num, by norm_num⟩ <;>
  · rw [abs_le, abs_le]; omega

/-! ## What fails off the binary grids -/

/-- The 0.1f of C++. -/
def tenth : ℝ := 13421773 * 2 ^ (-27 : ℤ)

/-- **C59**, what fails: tiles of twenty samples with step 0.1f do not fit together.  The second tile starts at 2.0f, which is what 20 * 0.1f is; its second sample is taken at
2.0999999046, the same sample of the untiled grid at 2.1000001431, at every SIMD level. -/
theorem C59_tiles_do_not_fit (L L' : Level) : samplePos L 20 tenth 0 = 2 ∧ samplePos L 21 tenth 0 = 8808039 * 2 ^ (-22 : ℤ) ∧
    samplePos L' 1 tenth 2 = 8808038 * 2 ^ (-22 : ℤ) := by
  have n20 : fl ((20 : Nat) : ℝ) = 20 := by rw [fl_nat (by norm_num)]; norm_num
  have n21 : fl ((21 : Nat) : ℝ) = 21 := by rw [fl_nat (by norm_num)]; norm_num
  have n1 : fl ((1 : Nat) : ℝ) = 1 := by rw [fl_nat (by norm_num)]; norm_num
  have rt : Rep tenth := ⟨13421773, -27, by norm_num, by norm_num, by norm_num [tenth]⟩
  have a20 : fl (20 * tenth) = 2 := by
    have := fl_eq (x := 20 * tenth) (m := 2 ^ 23) (e := -22) (by norm_num) (by norm_num) (by norm_num [tenth]) (by norm_num [tenth])
    rw [this]; norm_num
  have a21 : fl (21 * tenth) = 8808039 * 2 ^ (-22 : ℤ) := by
    have := fl_eq (x := 21 * tenth) (m := 8808039) (e := -22) (by norm_num) (by norm_num) (by norm_num [tenth, abs_of_nonneg]) (by norm_num [tenth, abs_lt])
    rw [this]; norm_num
  have b1 : fl (tenth + 2) = 8808038 * 2 ^ (-22 : ℤ) := by
    have := fl_eq (x := tenth + 2) (m := 8808038) (e := -22) (by norm_num) (by norm_num) (by norm_num [tenth, abs_of_nonneg]) (by norm_num [tenth, abs_lt])
    rw [this]; norm_num
  have r21 : fl (8808039 * 2 ^ (-22 : ℤ)) = 8808039 * 2 ^ (-22 : ℤ) := fl_rep ⟨8808039, -22, by norm_num, by norm_num, by norm_num⟩
  unfold samplePos fma add mul
  rw [n20, n21, n1, add_zero, add_zero, add_zero, add_zero, one_mul, a20, a21, b1, fl_rep rep_two, fl_rep rt, b1, r21]
  simp

/-- The 0.7f of C++. -/
def sevenTenths : ℝ := 11744051 * 2 ^ (-24 : ℤ)

/-- **C59**, what fails: sample positions differ between levels with and without fused multiply-add, and an output can jump over the whole range.  Checkerboard with scale 1, step 0.7f, offset -5.5:
the sample with index 10 is white at one level and black at the other. -/
theorem C59_levels_differ :
    samplePos ⟨true⟩ 10 sevenTenths (-5.5) = 12582911 * 2 ^ (-23 : ℤ) ∧ samplePos ⟨false⟩ 10 sevenTenths (-5.5) = 1.5 ∧
    checkerboard ⟨true⟩ Range.init 1 0 [samplePos ⟨true⟩ 10 sevenTenths (-5.5), 0] = 1 ∧
    checkerboard ⟨false⟩ Range.init 1 0 [samplePos ⟨false⟩ 10 sevenTenths (-5.5), 0] = -1 := by
  have n10 : fl ((10 : Nat) : ℝ) = 10 := by rw [fl_nat (by norm_num)]; norm_num
  have r1 : Rep (12582911 * 2 ^ (-23 : ℤ) : ℝ) := ⟨12582911, -23, by norm_num, by norm_num, by norm_num⟩
  have r2 : Rep (1.5 : ℝ) := ⟨3, -1, by norm_num, by norm_num, by norm_num⟩
  have p1 : samplePos ⟨true⟩ 10 sevenTenths (-5.5) = 12582911 * 2 ^ (-23 : ℤ) := by
    unfold samplePos fma
    rw [if_pos rfl, n10, show (10 * sevenTenths + -5.5 : ℝ) = 12582911 * 2 ^ (-23 : ℤ) by norm_num [sevenTenths], fl_rep r1]
  have p2 : samplePos ⟨false⟩ 10 sevenTenths (-5.5) = 1.5 := by
    unfold samplePos fma
    rw [if_neg (by simp), n10]
    have : mul 10 sevenTenths = 7 := by
      unfold mul
      have := fl_eq (x := 10 * sevenTenths) (m := 14680064) (e := -21) (by norm_num) (by norm_num) (by norm_num [sevenTenths, abs_of_nonneg]) (by norm_num [sevenTenths, abs_lt])
      rw [this]; norm_num
    rw [this]
    unfold add
    rw [show (7 + -5.5 : ℝ) = 1.5 by norm_num, fl_rep r2]
  have hg : OnGrid 0 [] := ⟨by norm_num, by norm_num, by simp⟩
  have e0 : rangeAfterF [] = Range.init := rfl
  refine ⟨p1, p2, ?_, ?_⟩
  · rw [p1]
    have := C58_checkerboard (e := 0) [] hg ⟨true⟩ 1 0 [12582911 * 2 ^ (-23 : ℤ), 0]
    rw [e0] at this
    rw [this]
    have m1 : mul (12582911 * 2 ^ (-23 : ℤ)) 1 = 12582911 * 2 ^ (-23 : ℤ) := by unfold mul; rw [mul_one, fl_rep r1]
    have m0 : mul 0 1 = ((0 : ℤ) : ℝ) := by unfold mul; rw [zero_mul, fl_zero]; simp
    have fl1 : ⌊(12582911 * 2 ^ (-23 : ℤ) : ℝ)⌋ = 1 := by rw [Int.floor_eq_iff]; norm_num
    have c1 : roundEven (12582911 * 2 ^ (-23 : ℤ)) = 1 := by
      unfold roundEven; rw [fl1]; norm_num
    simp only [scalePositions, List.map_cons, List.map_nil, m1, m0, convertI32, roundEven_int, c1, foldXor]
    norm_num [lastMax, lastMin]
  · rw [p2]
    have := C58_checkerboard (e := 0) [] hg ⟨false⟩ 1 0 [1.5, 0]
    rw [e0] at this
    rw [this]
    have m1 : mul 1.5 1 = 1.5 := by unfold mul; rw [mul_one, fl_rep r2]
    have m0 : mul 0 1 = ((0 : ℤ) : ℝ) := by unfold mul; rw [zero_mul, fl_zero]; simp
    have fl1 : ⌊(1.5 : ℝ)⌋ = 1 := by rw [Int.floor_eq_iff]; norm_num
    have c1 : roundEven 1.5 = 2 := by
      unfold roundEven; rw [fl1]; norm_num
    simp only [scalePositions, List.map_cons, List.map_nil, m1, m0, convertI32, roundEven_int, c1, foldXor]
    norm_num [lastMax, lastMin]
    decide

/-- **C59**, what fails: far from the origin different samples are taken at the same position: with step 1 and offset 2^24 the first two. -/
theorem C59_samples_collapse (L : Level) : samplePos L 0 1 (2 ^ 24) = 2 ^ 24 ∧ samplePos L 1 1 (2 ^ 24) = 2 ^ 24 := by
  have r : Rep (2 ^ 24 : ℝ) := by have := rep_pow (e := 24) (by norm_num); norm_num at this ⊢; exact this
  have h1 : fl (1 + 2 ^ 24) = 2 ^ 24 := by
    apply le_antisymm
    · have := fl_le_pow (x := 1 + 2 ^ 24) (k := 24) (by norm_num) (by norm_num)
      norm_num at this ⊢; exact this
    · exact le_fl r (by norm_num)
  have z : fl ((0 : Nat) : ℝ) = 0 := by rw [Nat.cast_zero, fl_zero]
  have o : fl ((1 : Nat) : ℝ) = 1 := by rw [Nat.cast_one, fl_rep rep_one]
  unfold samplePos fma add mul
  rw [z, o, zero_mul, one_mul, fl_zero, fl_rep rep_one, zero_add, fl_rep r, h1]
  simp

end
end FastNoise.F32
