import Verif.ZoomProps
/-!
# C79: seeds, seed offsets and Seed Offset nodes

Generating with seed `s + o` is the same as putting a Seed Offset node of `o` in front, and the same as adding `o` to the seed offset of every noise of the
tree, wrapping around at 32 bits.  Exact arithmetic (only the seeds matter).
-/
namespace FastNoise.SeedShift
open FastNoise.Hash FastNoise.Num FastNoise.Basic FastNoise.Lattice FastNoise.Simplex FastNoise.Modifiers FastNoise.Fractal
open FastNoise.Gradient (Feat)

noncomputable section

/-! ## Specification -/

/-- `s'` at every seed shows what `s` shows at the seed increased by `o`. -/
def ShiftedBy (o : I32) (s s' : Src) : Prop := ∀ (seed : I32) (p : Pos), s' seed p = s (seed + o) p

/-- The same for the cellular distance, which may yield no number (C27). -/
def ShiftedPartial (o : I32) (s s' : I32 → Pos → Option ℝ) : Prop := ∀ (seed : I32) (p : Pos), s' seed p = s (seed + o) p

/-- The same for warps. -/
def ShiftedWarp (o : I32) (w w' : WarpFn) : Prop := ∀ (seed : I32) (amp : ℝ) (x out : Pos), w' seed amp x out = w (seed + o) amp x out

theorem swap (a b c : I32) : a + (b + c) = a + c + b := by ac_rfl

/-! ## Seed Offset nodes -/

variable {o : I32} {a a' b b' s s' : Src}

/-- **C79**: a Seed Offset node of `o` shifts by `o`; two in a row by the sum; of zero not at all. -/
theorem C79_node (s : Src) (o o' : I32) :
    ShiftedBy o s (seedOffset o s) ∧ seedOffset o (seedOffset o' s) = seedOffset (o + o') s ∧ seedOffset 0 s = s ∧ seedOffset (-o) (seedOffset o s) = s := by
  refine ⟨fun _ _ => rfl, ?_, ?_, ?_⟩ <;> funext seed p
  · simp only [seedOffset, add_assoc]
  · simp only [seedOffset]; congr 1; simp
  · simp only [seedOffset]; congr 1
    rw [BitVec.add_assoc, BitVec.add_comm (-o), BitVec.add_right_neg, BitVec.add_zero]

/-- **C79**: so every tree whose seed offsets were all increased is the tree behind one Seed Offset node. -/
theorem C79_one_node (h : ShiftedBy o s s') : s' = seedOffset o s := by
  funext seed p; exact h seed p

/-! ## Sources -/

/-- **C79** (noises): the seed offset of the noise is increased. -/
theorem C79_noises (ft : Feat) (r : Range ℝ) (scale v : ℝ) (off : I32) :
    ShiftedBy o (constant v) (constant v) ∧
    ShiftedBy o (Src.const v) (Src.const v) ∧
    ShiftedBy o (value r scale off) (value r scale (off + o)) ∧
    ShiftedBy o (perlin ft r scale off) (perlin ft r scale (off + o)) ∧
    ShiftedBy o (simplex ft r scale off) (simplex ft r scale (off + o)) ∧
    ShiftedBy o (superSimplex ft r scale off) (superSimplex ft r scale (off + o)) ∧
    (∀ (seed : I32) (bits : List I32), white r (off + o) seed bits = white r off (seed + o) bits) := by
  refine ⟨fun _ _ => rfl, fun _ _ => rfl, ?_, ?_, ?_, ?_, ?_⟩ <;> intro seed p
  · simp only [value, swap]
  · simp only [perlin, swap]
  · simp only [simplex, swap]
  · simp only [superSimplex, swap]
  · simp only [white, swap]

theorem gradientLoop_shift {p p' : Nat → Src} (h : ∀ i, ShiftedBy o (p i) (p' i)) (mult : Nat → ℝ) (seed : I32) (full : Pos) :
    ∀ (ps : Pos) (i : Nat) (r : ℝ), gradientLoop p' mult seed full i ps r = gradientLoop p mult (seed + o) full i ps r := by
  intro ps
  induction ps with
  | nil => intros; rfl
  | cons q ps ih => intro i r; simp only [gradientLoop]; rw [ih, h i seed full]

theorem subPoint_shift {p p' : Nat → Src} (h : ∀ i, ShiftedBy o (p i) (p' i)) (seed : I32) (full : Pos) :
    ∀ (ps : Pos) (i : Nat), subPoint p' seed full i ps = subPoint p (seed + o) full i ps := by
  intro ps
  induction ps with
  | nil => intros; rfl
  | cons q ps ih => intro i; simp only [subPoint]; rw [ih, h i seed full]

theorem calcDistance_shift (relaxed doSqrt : Bool) (fn : DistFn) (h : ShiftedBy o a a') (seed : I32) (x : ℝ) (r : Pos) :
    calcDistance relaxed doSqrt fn a' seed x r = calcDistance relaxed doSqrt fn a (seed + o) x r := by
  cases fn <;> simp only [calcDistance]
  rw [h seed]

/-- **C79**: nodes without a seed of their own depend on it through their sources. -/
theorem C79_seedless {p p' : Nat → Src} (h : ∀ i, ShiftedBy o (p i) (p' i)) (ha : ShiftedBy o a a') (relaxed : Bool) (fn : DistFn) (mult : Nat → ℝ) (r : Range ℝ) (f : ℝ) :
    ShiftedBy o (gradient p mult) (gradient p' mult) ∧
    ShiftedBy o (distanceToPoint relaxed fn a p) (distanceToPoint relaxed fn a' p') ∧
    ShiftedBy o (checkerboard r f) (checkerboard r f) ∧
    ShiftedBy o (sineWave r f) (sineWave r f) := by
  refine ⟨fun seed q => gradientLoop_shift h mult seed q q 0 0, fun seed q => ?_, fun _ _ => rfl, fun _ _ => rfl⟩
  simp only [distanceToPoint]
  rw [subPoint_shift h seed q q 0]
  rcases subPoint p (seed + o) q 0 q with _ | ⟨x, rest⟩
  · rfl
  · exact calcDistance_shift relaxed true fn ha seed x rest

/-- The cellular settings with the seed offset increased by `o` and other sources. -/
def cellularShift (o : I32) (c : Cellular.Cfg) (mp grid size : Src) : Cellular.Cfg :=
  { c with seedOffset := c.seedOffset + o, minkowskiP := mp, gridJitter := grid, sizeNode := size }

theorem scanned_shift (relaxed doSqrt : Bool) (c : Cellular.Cfg) {mp grid size : Src} (hm : ShiftedBy o c.minkowskiP mp) (hg : ShiftedBy o c.gridJitter grid)
    (hs : ShiftedBy o c.sizeNode size) (seed : I32) (p : Pos) :
    Cellular.scanned relaxed doSqrt (cellularShift o c mp grid size) seed p = Cellular.scanned relaxed doSqrt c (seed + o) p := by
  have h1 : (cellularShift o c mp grid size).sizeSrc seed p = c.sizeSrc (seed + o) p := by
    unfold Cellular.Cfg.sizeSrc
    show (if c.sizeIsNode then size else Src.const c.sizeConst) seed p = _
    split_ifs
    · exact hs seed p
    · rfl
  have h2 : (cellularShift o c mp grid size).gridJitter seed p = c.gridJitter (seed + o) p := hg seed p
  have h3 : seed + (cellularShift o c mp grid size).seedOffset = seed + o + c.seedOffset := swap _ _ _
  have h4 : ∀ (sj : ℝ) (h : I32) (q : List ℝ), Cellular.cellDistance relaxed doSqrt (cellularShift o c mp grid size) (Cellular.tab p) seed sj (scalePositions (frequency c.scale) p) h q =
      Cellular.cellDistance relaxed doSqrt c (Cellular.tab p) (seed + o) sj (scalePositions (frequency c.scale) p) h q := by
    intro sj h q
    unfold Cellular.cellDistance
    rcases List.zipWith (· - ·) q (scalePositions (frequency c.scale) p) with _ | ⟨x, rest⟩
    · rfl
    · have e := calcDistance_shift relaxed doSqrt c.fn hm seed x rest
      show (if c.sizeActive then calcDistance relaxed doSqrt c.fn mp seed x rest * _ else calcDistance relaxed doSqrt c.fn mp seed x rest) = _
      rw [e]
  unfold Cellular.scanned
  rw [h1, h2, h3]
  show (Cellular.visited (scalePositions (frequency c.scale) p)).map _ = _
  apply List.map_congr_left
  intro cell _
  exact Prod.ext (h4 _ _ _) rfl

/-- **C79** (cellular noise). -/
theorem C79_cellular (relaxed : Bool) (r : Range ℝ) (c : Cellular.Cfg) {mp grid size lookup lookup' : Src} (hm : ShiftedBy o c.minkowskiP mp)
    (hg : ShiftedBy o c.gridJitter grid) (hs : ShiftedBy o c.sizeNode size) (hl : ShiftedBy o lookup lookup') (rt : Cellular.ReturnType) (i i0 i1 : Nat) (junk : List I32)
    (junkPos : List ℝ) :
    ShiftedBy o (Cellular.cellularValue relaxed r c i junk) (Cellular.cellularValue relaxed r (cellularShift o c mp grid size) i junk) ∧
    ShiftedPartial o (Cellular.cellularDistance relaxed r c rt i0 i1) (Cellular.cellularDistance relaxed r (cellularShift o c mp grid size) rt i0 i1) ∧
    ShiftedBy o (Cellular.cellularLookup relaxed c lookup junkPos) (Cellular.cellularLookup relaxed (cellularShift o c mp grid size) lookup' junkPos) := by
  refine ⟨fun seed p => ?_, fun seed p => ?_, fun seed p => ?_⟩
  · simp only [Cellular.cellularValue, scanned_shift relaxed _ c hm hg hs]
  · simp only [Cellular.cellularDistance, scanned_shift relaxed _ c hm hg hs]; rfl
  · simp only [Cellular.cellularLookup, scanned_shift relaxed _ c hm hg hs]
    rw [hl, show seed - (-1) + o = seed + o - (-1) by rw [BitVec.sub_eq_add_neg, BitVec.sub_eq_add_neg]; ac_rfl]
    rfl

/-! ## Nodes -/

/-- **C79** (values). -/
theorem C79_values (ha : ShiftedBy o a a') (hb : ShiftedBy o b b') (hs : ShiftedBy o s s') (op : Op) (n : ℤ) (relaxed : Bool) :
    ShiftedBy o (Modifiers.blend op a b) (Modifiers.blend op a' b') ∧
    ShiftedBy o (powFloat a b) (powFloat a' b') ∧
    ShiftedBy o (powInt n a) (powInt n a') ∧
    ShiftedBy o (minSmooth s a b) (minSmooth s' a' b') ∧
    ShiftedBy o (maxSmooth s a b) (maxSmooth s' a' b') ∧
    ShiftedBy o (pingPong a b) (pingPong a' b') ∧
    ShiftedBy o (signedSqrt relaxed a) (signedSqrt relaxed a') ∧
    ShiftedBy o (absNode a) (absNode a') := by
  refine ⟨?_, ?_, ?_, ?_, ?_, ?_, ?_, ?_⟩ <;> intro seed p
  · simp only [Modifiers.blend, ha seed p, hb seed p]
  · simp only [powFloat, ha seed p, hb seed p]
  · simp only [powInt, ha seed p]
  · simp only [minSmooth, ha seed p, hb seed p, hs seed p]
  · simp only [maxSmooth, ha seed p, hb seed p, hs seed p]
  · simp only [pingPong, ha seed p, hb seed p]
  · simp only [signedSqrt, ha seed p]
  · simp only [absNode, ha seed p]

/-- **C79** (Fade, Remap, Terrace). -/
theorem C79_ranges {f f' lo lo' hi hi' : Src} (ha : ShiftedBy o a a') (hb : ShiftedBy o b b') (hs : ShiftedBy o s s') (hf : ShiftedBy o f f') (hlo : ShiftedBy o lo lo')
    (hhi : ShiftedBy o hi hi') (i : Interpolation) (clamp : Bool) (t : TerraceSt) :
    ShiftedBy o (fade i a b f lo hi) (fade i a' b' f' lo' hi') ∧
    ShiftedBy o (remap clamp lo hi a b s) (remap clamp lo' hi' a' b' s') ∧
    ShiftedBy o (terrace { t with smoothGen := none } s) (terrace { t with smoothGen := none } s') ∧
    ShiftedBy o (terrace { t with smoothGen := some a } s) (terrace { t with smoothGen := some a' } s') := by
  refine ⟨?_, ?_, ?_, ?_⟩ <;> intro seed p
  · simp only [fade, ha seed p, hb seed p, hf seed p, hlo seed p, hhi seed p]
  · simp only [remap, ha seed p, hb seed p, hs seed p, hlo seed p, hhi seed p]
  · simp only [terrace, hs seed p]
  · simp only [terrace, hs seed p, ha seed p]

/-- **C79** (domain modifiers). -/
theorem C79_domain (hs : ShiftedBy o s s') {d d' : Nat → Src} (hd : ∀ i, ShiftedBy o (d i) (d' i)) {w w' : Src} (hw : ShiftedBy o w w')
    (c : ℝ) (axes : Nat → ℝ) (r : Rot) (t : Plane) (off : I32) (dim : Nat) :
    ShiftedBy o (domainScale c s) (domainScale c s') ∧
    ShiftedBy o (domainAxisScale axes s) (domainAxisScale axes s') ∧
    ShiftedBy o (domainOffset d s) (domainOffset d' s') ∧
    ShiftedBy o (domainRotate r s) (domainRotate r s') ∧
    ShiftedBy o (domainRotatePlane t s) (domainRotatePlane t s') ∧
    ShiftedBy o (seedOffset off s) (seedOffset off s') ∧
    ShiftedBy o (addDimension w s) (addDimension w' s') ∧
    ShiftedBy o (removeDimension dim s) (removeDimension dim s') := by
  refine ⟨fun seed p => hs seed _, fun seed p => hs seed _, ?_, fun seed p => hs seed _, fun seed p => hs seed _, ?_, ?_, ?_⟩ <;> intro seed p
  · simp only [domainOffset, hs seed, hd _ seed p]
  · simp only [seedOffset, hs (seed + off)]; congr 1; ac_rfl
  · simp only [addDimension, hs seed, hw seed p]
  · rcases p with _ | ⟨x, _ | ⟨y, _ | ⟨z, _ | ⟨w, _ | ⟨v, p⟩⟩⟩⟩⟩ <;> simp only [removeDimension, hs seed]

theorem next_shift (seed o : I32) : seed - (-1) + o = seed + o - (-1) := by
  rw [BitVec.sub_eq_add_neg, BitVec.sub_eq_add_neg]; ac_rfl

theorem fbmLoop_shift (hs : ShiftedBy o s s') (gain ws lac : ℝ) : ∀ (n : Nat) (seed : I32) (p : Pos) (amp noise sum : ℝ),
    fbmLoop s' gain ws lac n seed p amp noise sum = fbmLoop s gain ws lac n (seed + o) p amp noise sum := by
  intro n
  induction n with
  | zero => intros; rfl
  | succ n ih => intro seed p amp noise sum; simp only [fbmLoop]; rw [hs, ih, next_shift]

theorem ridgedLoop_shift (hs : ShiftedBy o s s') (gain ws lac : ℝ) : ∀ (n : Nat) (seed : I32) (p : Pos) (amp noise sum : ℝ),
    ridgedLoop s' gain ws lac n seed p amp noise sum = ridgedLoop s gain ws lac n (seed + o) p amp noise sum := by
  intro n
  induction n with
  | zero => intros; rfl
  | succ n ih => intro seed p amp noise sum; simp only [ridgedLoop]; rw [hs, ih, next_shift]

/-- **C79** (fractals). -/
theorem C79_fractals (hs : ShiftedBy o s s') {g g' w w' : Src} (hg : ShiftedBy o g g') (hw : ShiftedBy o w w') (octaves : ℤ) (lac : ℝ) :
    ShiftedBy o (fbm ⟨g, w, octaves, lac⟩ s) (fbm ⟨g', w', octaves, lac⟩ s') ∧
    ShiftedBy o (ridged ⟨g, w, octaves, lac⟩ s) (ridged ⟨g', w', octaves, lac⟩ s') := by
  constructor <;> intro seed p
  · simp only [fbm, hg seed p, hw seed p, hs seed p, fbmLoop_shift hs]
  · simp only [ridged, hg seed p, hw seed p, hs seed p, ridgedLoop_shift hs]

/-! ## Domain warps -/

/-- **C79** (warps): Domain Warp Gradient and Simplex add their seed offset; Domain Warp Super Simplex does not read it. -/
theorem C79_warp_functions (off : I32) (axes : Nat → ℝ) (sch : WarpGrad.Scheme) (ft : Feat) :
    ShiftedWarp o (gradientWarp off axes) (gradientWarp (off + o) axes) ∧
    ShiftedWarp o (WarpSimplex.simplexWarp sch ft off axes) (WarpSimplex.simplexWarp sch ft (off + o) axes) := by
  constructor <;> intro seed amp x out
  · simp only [gradientWarp, swap]
  · simp only [WarpSimplex.simplexWarp, swap]

/-- **C79** (stand-alone warps): the two kinds that add their seed offset themselves have it added twice, so an increase by `h` counts `2 h`; the third kind once. -/
theorem C79_warp_partial (hs : ShiftedBy o s s') {amp amp' : Src} (ha : ShiftedBy o amp amp') (off h : I32) (hh : h + h = o) (axes : Nat → ℝ) (sch : WarpGrad.Scheme) (ft : Feat)
    (scale : ℝ) :
    ShiftedBy o (domainWarp (gradientWarp off axes) off scale amp s) (domainWarp (gradientWarp (off + h) axes) (off + h) scale amp' s') ∧
    ShiftedBy o (domainWarp (WarpSimplex.simplexWarp sch ft off axes) off scale amp s) (domainWarp (WarpSimplex.simplexWarp sch ft (off + h) axes) (off + h) scale amp' s') ∧
    ShiftedBy o (domainWarp (WarpSimplex.superSimplexWarp sch ft axes) off scale amp s) (domainWarp (WarpSimplex.superSimplexWarp sch ft axes) (off + o) scale amp' s') := by
  subst hh
  have e : ∀ seed : I32, seed + (off + h) + (off + h) = seed + (h + h) + off + off := fun seed => by ac_rfl
  refine ⟨?_, ?_, ?_⟩ <;> intro seed p
  · simp only [domainWarp, gradientWarp, e, hs seed, ha seed p]
  · simp only [domainWarp, WarpSimplex.simplexWarp, e, hs seed, ha seed p]
  · simp only [domainWarp, swap seed, hs seed, ha seed p]

theorem progressiveLoop_shift {w w' : WarpFn} (hw : ShiftedWarp o w w') (relaxed : Bool) (gain ws lac : ℝ) : ∀ (n : Nat) (seed : I32) (freq amp : ℝ) (st : Pos × ℝ),
    progressiveLoop relaxed w' gain ws lac n seed freq amp st = progressiveLoop relaxed w gain ws lac n (seed + o) freq amp st := by
  intro n
  induction n with
  | zero => intros; rfl
  | succ n ih => intro seed freq amp st; simp only [progressiveLoop]; rw [hw, ih, next_shift]

theorem independentLoop_shift {w w' : WarpFn} (hw : ShiftedWarp o w w') (relaxed : Bool) (gain ws lac : ℝ) (p : Pos) : ∀ (n : Nat) (seed : I32) (freq amp : ℝ) (st : Pos × ℝ),
    independentLoop relaxed w' gain ws lac p n seed freq amp st = independentLoop relaxed w gain ws lac p n (seed + o) freq amp st := by
  intro n
  induction n with
  | zero => intros; rfl
  | succ n ih => intro seed freq amp st; simp only [independentLoop]; rw [hw, ih, next_shift]

/-- **C79** (fractal warps): the seed offset of the warp is added once. -/
theorem C79_warp_fractals {w w' : WarpFn} (hw : ShiftedWarp o w w') (hs : ShiftedBy o s s') {amp amp' g g' ws ws' : Src} (ha : ShiftedBy o amp amp')
    (hg : ShiftedBy o g g') (hws : ShiftedBy o ws ws') (relaxed : Bool) (octaves : ℤ) (scale lac : ℝ) :
    ShiftedBy o (progressive relaxed ⟨g, ws, octaves, lac⟩ w scale amp s) (progressive relaxed ⟨g', ws', octaves, lac⟩ w' scale amp' s') ∧
    ShiftedBy o (independent relaxed ⟨g, ws, octaves, lac⟩ w scale amp s) (independent relaxed ⟨g', ws', octaves, lac⟩ w' scale amp' s') := by
  constructor <;> intro seed p
  · simp only [progressive, ha seed p, hg seed p, hws seed p, hw seed, progressiveLoop_shift hw, hs seed]
  · simp only [independent, ha seed p, hg seed p, hws seed p, hw seed, independentLoop_shift hw, hs seed]

/-- A tree: the larger of a ridged Simplex fractal and a Perlin noise warped by two octaves. -/
def sampleTree (o : I32) (ft : Feat) (r : Range ℝ) : Src :=
  Modifiers.blend .max (ridged ⟨Src.const (1 / 2), Src.const 0, 4, 2⟩ (simplex ft r 80 (7 + o)))
    (progressive true ⟨Src.const (1 / 2), Src.const 0, 2, 2⟩ (gradientWarp (3 + o) fun _ => 1) 50 (Src.const 30) (perlin ft r 100 (-1 + o)))

example (o : I32) (ft : Feat) (r : Range ℝ) : sampleTree o ft r = seedOffset o (sampleTree 0 ft r) := by
  apply C79_one_node
  have c : ∀ v, ShiftedBy o (Src.const v) (Src.const v) := fun v => (C79_noises ft r 1 v 0).2.1
  have e : ∀ x : I32, x + 0 = x := fun x => BitVec.add_zero x
  unfold sampleTree
  rw [e, e, e]
  exact (C79_values (C79_fractals (C79_noises ft r 80 0 7).2.2.2.2.1 (c _) (c _) 4 2).2
    (C79_warp_fractals (C79_warp_functions 3 _ .gradientOuterProduct ft).1 (C79_noises ft r 100 0 (-1)).2.2.2.1 (c 30) (c _) (c 0) true 2 50 2).1 (c 0) .max 2 true).1

end
end FastNoise.SeedShift
