import Verif.SeedShiftProps
/-!
# C80: fractals spelled out in nodes, neutral nodes, nodes that combine

Equations between trees: both sides give the same value for every seed and position.  Exact arithmetic.
-/
namespace FastNoise.TreeLaw
open FastNoise.Hash FastNoise.Num FastNoise.Basic FastNoise.Lattice FastNoise.Modifiers FastNoise.Fractal FastNoise.Zoom
open FastNoise.Gradient (Feat)

noncomputable section

/-! ## Specification: the nodes with constant settings -/

/-- A Multiply node with a constant. -/
def times (c : ℝ) (s : Src) : Src := Modifiers.blend .multiply s (Src.const c)
/-- An Add node. -/
def plus (a b : Src) : Src := Modifiers.blend .add a b
/-- A Domain Offset node with constants. -/
def shifted (v : Nat → ℝ) (s : Src) : Src := domainOffset (fun i => Src.const (v i)) s
/-- A Domain Rotate node after setting only the yaw. -/
def yawed (angle : ℝ) (s : Src) : Src := domainRotate (Rot.after [.yaw angle]) s
/-- Settings of a fractal without weighted strength. -/
def plain (gain : ℝ) (octaves : ℤ) (lac : ℝ) : Fractal.Cfg := ⟨Src.const gain, Src.const 0, octaves, lac⟩
/-- A warp stand-alone, without adding a second seed offset (C29). -/
def warped (w : WarpFn) (scale amp : ℝ) (s : Src) : Src := domainWarp w 0 scale (Src.const amp) s

/-! ## Fractals -/

theorem fbmLoop_lin (s : Src) (g lac : ℝ) : ∀ (n : Nat) (seed : I32) (p : Pos) (amp noise noise' sum : ℝ),
    fbmLoop s g 0 lac n seed p amp noise sum = sum + amp * fbmLoop s g 0 lac n seed p 1 noise' 0 := by
  intro n
  induction n with
  | zero => intros; simp [fbmLoop]
  | succ n ih =>
    intro seed p amp noise noise' sum
    simp only [fbmLoop]
    have e : ∀ x : ℝ, lerp 1 x 0 = 1 := fun x => by simp [lerp, fma]
    rw [e, e, ih (seed - (-1)) (p.map (· * lac)) (amp * 1 * g) _ 0, ih (seed - (-1)) (p.map (· * lac)) (1 * 1 * g) _ 0]
    ring

theorem ridgedLoop_lin (s : Src) (g lac : ℝ) : ∀ (n : Nat) (seed : I32) (p : Pos) (amp noise noise' sum : ℝ),
    ridgedLoop s g 0 lac n seed p amp noise sum = sum + amp * ridgedLoop s g 0 lac n seed p 1 noise' 0 := by
  intro n
  induction n with
  | zero => intros; simp [ridgedLoop]
  | succ n ih =>
    intro seed p amp noise noise' sum
    simp only [ridgedLoop]
    have e : ∀ x : ℝ, lerp 1 x 0 = 1 := fun x => by simp [lerp, fma]
    rw [e, e, ih (seed - (-1)) (p.map (· * lac)) (amp * 1 * g) _ 0, ih (seed - (-1)) (p.map (· * lac)) (1 * 1 * g) _ 0]
    ring

theorem next_seed (seed : I32) : seed - (-1) = seed + 1 := by
  rw [BitVec.sub_eq_add_neg, BitVec.neg_neg]

/-- **C80** (FBm): one octave is the source; one octave more is the source plus `gain` times the fractal with the seed increased by one, at the position times `lacunarity`. -/
theorem C80_fbm (s : Src) (gain lac : ℝ) (octaves : ℤ) :
    fbm (plain gain 1 lac) s = s ∧
    (1 ≤ octaves → fbm (plain gain (octaves + 1) lac) s = plus s (times gain (domainScale lac (seedOffset 1 (fbm (plain gain octaves lac) s))))) := by
  constructor
  · funext seed p; simp [fbm, plain, fbmLoop]
  · intro h
    obtain ⟨m, rfl⟩ : ∃ m : Nat, octaves = m + 1 := ⟨(octaves - 1).toNat, by omega⟩
    funext seed p
    have e1 : ((m : ℤ) + 1 + 1 - 1).toNat = m + 1 := by omega
    have e2 : ((m : ℤ) + 1 - 1).toNat = m := by omega
    have e : ∀ x : ℝ, lerp 1 x 0 = 1 := fun x => by simp [lerp, fma]
    simp only [fbm, plain, plus, times, Modifiers.blend, domainScale, seedOffset, Src.const, e1, e2, fbmLoop]
    have L := fbmLoop_lin s gain lac m (seed + 1) (p.map (· * lac))
    rw [e, next_seed, L (1 * 1 * gain) _ 0, L 1 (s (seed + 1) (p.map (· * lac))) 0 (s (seed + 1) (p.map (· * lac)) * 1)]
    ring

/-- **C80** (Ridged): one octave is `1 - 2 |source|`; one octave more as for FBm. -/
theorem C80_ridged (s : Src) (gain lac : ℝ) (octaves : ℤ) :
    ridged (plain gain 1 lac) s = plus (Src.const 1) (times (-2) (absNode s)) ∧
    (1 ≤ octaves → ridged (plain gain (octaves + 1) lac) s =
      plus (ridged (plain gain 1 lac) s) (times gain (domainScale lac (seedOffset 1 (ridged (plain gain octaves lac) s))))) := by
  constructor
  · funext seed p; simp [ridged, plain, ridgedLoop, plus, times, Modifiers.blend, absNode, Src.const]; ring
  · intro h
    obtain ⟨m, rfl⟩ : ∃ m : Nat, octaves = m + 1 := ⟨(octaves - 1).toNat, by omega⟩
    funext seed p
    have e1 : ((m : ℤ) + 1 + 1 - 1).toNat = m + 1 := by omega
    have e2 : ((m : ℤ) + 1 - 1).toNat = m := by omega
    have e3 : ((1 : ℤ) - 1).toNat = 0 := by omega
    have e : ∀ x : ℝ, lerp 1 x 0 = 1 := fun x => by simp [lerp, fma]
    simp only [ridged, plain, plus, times, Modifiers.blend, domainScale, seedOffset, Src.const, e1, e2, e3, ridgedLoop]
    have L := ridgedLoop_lin s gain lac m (seed + 1) (p.map (· * lac))
    rw [e, next_seed, L (1 * 1 * gain) _ 0, L 1 |s (seed + 1) (p.map (· * lac))| 0 ((|s (seed + 1) (p.map (· * lac))| * (-2) + 1) * 1)]
    ring

/-- **C80** (progressive warp): one octave is the warp itself; one octave more warps the tree behind it by the rest, with the next seed, the size divided by `lacunarity`
and the amplitude times `gain`. -/
theorem C80_progressive (w : WarpFn) (relaxed : Bool) (s : Src) (gain lac scale amp : ℝ) (octaves : ℤ) :
    progressive relaxed (plain gain 1 lac) w scale (Src.const amp) s = warped w scale amp s ∧
    (1 ≤ octaves → progressive relaxed (plain gain (octaves + 1) lac) w scale (Src.const amp) s =
      warped w scale amp (seedOffset 1 (progressive relaxed (plain gain octaves lac) w (scale / lac) (Src.const (amp * gain)) (seedOffset (-1) s)))) := by
  have e : ∀ x : ℝ, lerp 1 x 0 = 1 := fun x => by simp [lerp, fma]
  have ef : ∀ a b : ℝ, frequency (a / b) = frequency a * b := by
    intro a b; unfold frequency; rw [one_div, one_div, inv_div]; ring
  constructor
  · funext seed p
    simp [progressive, plain, progressiveLoop, warped, domainWarp, Src.const, scalePositions]
  · intro h
    obtain ⟨m, rfl⟩ : ∃ m : Nat, octaves = m + 1 := ⟨(octaves - 1).toNat, by omega⟩
    funext seed p
    have e1 : ((m : ℤ) + 1 + 1 - 1).toNat = m + 1 := by omega
    have e2 : ((m : ℤ) + 1 - 1).toNat = m := by omega
    simp only [progressive, plain, warped, domainWarp, seedOffset, Src.const, e1, e2, progressiveLoop, e, ef, mul_one, next_seed, scalePositions]
    have z : ∀ x : I32, x + 0 = x := fun x => BitVec.add_zero x
    rw [z, BitVec.add_assoc seed 1, BitVec.add_right_neg, BitVec.add_zero]

/-! ## Neutral settings -/

theorem mapIdx_self {f : Nat → ℝ → ℝ} (h : ∀ i x, f i x = x) (p : Pos) : p.mapIdx f = p := by
  apply List.ext_getElem
  · simp
  · intro i h1 h2; simp [h]

/-- **C80** (neutral nodes): these leave their source as it is. -/
theorem C80_neutral (s t : Src) (w : WarpFn) (off : I32) (axes : Nat → ℝ) (scale gain lac : ℝ) :
    plus s (Src.const 0) = s ∧ times 1 s = s ∧
    Modifiers.blend .subtract s (Src.const 0) = s ∧ Modifiers.blend .divide s (Src.const 1) = s ∧
    Modifiers.blend .min s s = s ∧ Modifiers.blend .max s s = s ∧
    domainScale 1 s = s ∧ domainAxisScale (fun _ => 1) s = s ∧ shifted (fun _ => 0) s = s ∧ seedOffset 0 s = s ∧
    fbm (plain gain 1 lac) s = s ∧
    warped (gradientWarp off axes) scale 0 s = s ∧
    fade .linear s t (Src.const 0) (Src.const 0) (Src.const 1) = s ∧ fade .linear t s (Src.const 1) (Src.const 0) (Src.const 1) = s ∧
    absNode (absNode s) = absNode s := by
  refine ⟨?_, ?_, ?_, ?_, ?_, ?_, ?_, ?_, ?_, ?_, (C80_fbm s gain lac 1).1, ?_, ?_, ?_, ?_⟩ <;> funext seed p
  · simp [plus, Modifiers.blend, Src.const]
  · simp [times, Modifiers.blend, Src.const]
  · simp [Modifiers.blend, Src.const]
  · simp [Modifiers.blend, Src.const]
  · simp [Modifiers.blend]
  · simp [Modifiers.blend]
  · simp [domainScale]
  · simp only [domainAxisScale]; rw [mapIdx_self (by simp)]
  · simp only [shifted, domainOffset, Src.const]; rw [mapIdx_self (by simp)]
  · simp [seedOffset]
  · simp only [warped, domainWarp, gradientWarp, Src.const]; rw [mapIdx_self (by simp [fma])]
  · simp [fade, Src.const, lerp, fma]
  · simp [fade, Src.const, lerp, fma]
  · simp [absNode]

/-- **C80** (Remap): from a range to itself, without clamping; and back again. -/
theorem C80_remap (s : Src) (a b c d : ℝ) (hab : a ≠ b) (hcd : c ≠ d) :
    remap false (Src.const a) (Src.const b) (Src.const a) (Src.const b) s = s ∧
    remap false (Src.const c) (Src.const d) (Src.const a) (Src.const b) (remap false (Src.const a) (Src.const b) (Src.const c) (Src.const d) s) = s := by
  have h1 : b - a ≠ 0 := sub_ne_zero.mpr hab.symm
  have h2 : d - c ≠ 0 := sub_ne_zero.mpr hcd.symm
  constructor <;> funext seed p <;> simp only [remap, Src.const, Bool.false_eq_true, if_false]
  · field_simp; ring
  · field_simp; ring

/-! ## Nodes that combine -/

/-- **C80** (domain modifiers in a row). -/
theorem C80_domain (s a b : Src) (c d : ℝ) (u v : Nat → ℝ) (op : Op) :
    domainScale c (domainScale d s) = domainScale (c * d) s ∧
    domainAxisScale (fun _ => c) s = domainScale c s ∧
    shifted u (shifted v s) = shifted (fun i => u i + v i) s ∧
    shifted v (domainScale c s) = domainScale c (shifted (fun i => v i * c) s) ∧
    domainScale c (Modifiers.blend op a b) = Modifiers.blend op (domainScale c a) (domainScale c b) ∧
    shifted v (Modifiers.blend op a b) = Modifiers.blend op (shifted v a) (shifted v b) := by
  refine ⟨?_, ?_, ?_, ?_, ?_, ?_⟩ <;> funext seed p
  · simp only [domainScale, List.map_map]; congr 1; apply List.map_congr_left; intro x _; simp only [Function.comp]; ring
  · simp only [domainAxisScale, domainScale]; congr 1
    apply List.ext_getElem <;> simp
  · simp only [shifted, domainOffset, Src.const]; congr 1
    apply List.ext_getElem
    · simp
    · intro i h1 h2; simp [add_assoc]
  · simp only [shifted, domainOffset, domainScale, Src.const]; congr 1
    apply List.ext_getElem
    · simp
    · intro i h1 h2; simp; ring
  · cases op <;> rfl
  · cases op <;> rfl

/-- **C80** (dimensions): adding a dimension and removing it again, in two and three dimensions. -/
theorem C80_dimensions (s : Src) (c : ℝ) (seed : I32) (x y z : ℝ) :
    addDimension (Src.const c) (removeDimension 2 s) seed [x, y] = s seed [x, y] ∧
    addDimension (Src.const c) (removeDimension 3 s) seed [x, y, z] = s seed [x, y, z] ∧
    removeDimension 2 (addDimension (Src.const c) s) seed [x, y, z] = s seed [x, y, c] := ⟨rfl, rfl, rfl⟩

/-- **C80** (rotations in the plane): no rotation, and two in a row. -/
theorem C80_yaw (s : Src) (a b : ℝ) (seed : I32) (x y : ℝ) :
    yawed 0 s seed [x, y] = s seed [x, y] ∧ yawed a (yawed b s) seed [x, y] = yawed (a + b) s seed [x, y] := by
  have h : ∀ (t x y : ℝ), rotatePos (Rot.after [.yaw t]) [x, y] = [x * Real.cos t - y * Real.sin t, x * Real.sin t + y * Real.cos t] := by
    intro t x y
    simp only [rotatePos, Rot.after, List.foldl, Rot.set, Rot.calculate, and_self, if_true, fnma, fma]
    congr 1; ring
  constructor
  · simp only [yawed, domainRotate, h]; simp
  · simp only [yawed, domainRotate, h, Real.cos_add, Real.sin_add]
    congr 1
    simp only [List.cons.injEq, and_true]
    constructor <;> ring

/-- **C80** (blends). -/
theorem C80_blends (a b c : Src) :
    plus a b = plus b a ∧ plus (plus a b) c = plus a (plus b c) ∧
    Modifiers.blend .subtract a b = plus a (times (-1) b) ∧
    Modifiers.blend .multiply a (plus b c) = plus (Modifiers.blend .multiply a b) (Modifiers.blend .multiply a c) ∧
    Modifiers.blend .max a b = times (-1) (Modifiers.blend .min (times (-1) a) (times (-1) b)) ∧
    plus (Modifiers.blend .min a b) (Modifiers.blend .max a b) = plus a b ∧
    absNode a = Modifiers.blend .max a (times (-1) a) := by
  refine ⟨?_, ?_, ?_, ?_, ?_, ?_, ?_⟩ <;> funext seed p <;> simp only [plus, times, absNode, Modifiers.blend, Src.const]
  · ring
  · ring
  · ring
  · ring
  · rw [mul_neg_one, mul_neg_one, mul_neg_one, min_neg_neg, neg_neg]
  · exact min_add_max _ _
  · rw [mul_neg_one, abs]

/-- Three octaves written out. -/
example (s : Src) : fbm (plain (1 / 2) 3 2) s = plus s (times (1 / 2) (domainScale 2 (seedOffset 1 (plus s (times (1 / 2) (domainScale 2 (seedOffset 1 s))))))) := by
  rw [show (3 : ℤ) = 1 + 1 + 1 by norm_num, (C80_fbm s (1 / 2) 2 (1 + 1)).2 (by norm_num), (C80_fbm s (1 / 2) 2 1).2 (by norm_num), (C80_fbm s (1 / 2) 2 1).1]

end
end FastNoise.TreeLaw
