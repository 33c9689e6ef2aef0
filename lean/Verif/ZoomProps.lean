import Verif.RateWarpProps
import Verif.WarpSimplexProps
import Verif.CellularRateProps
/-!
# C78: zooming a whole tree

Multiplying all feature sizes, amplitudes and offsets of a tree by `k` shows the same picture magnified by `k`.  Exact arithmetic.
-/
namespace FastNoise.Zoom
open FastNoise.Hash FastNoise.Num FastNoise.Basic FastNoise.Lattice FastNoise.Simplex FastNoise.Modifiers FastNoise.Fractal
open FastNoise.Gradient (Feat)

noncomputable section

/-! ## Specification -/

/-- The position with every coordinate multiplied by `k`. -/
def magnify (k : ℝ) (p : Pos) : Pos := p.map (· * k)

/-- `s'` shows the picture of `s`, magnified by `k`. -/
def ZoomedBy (k : ℝ) (s s' : Src) : Prop := ∀ (seed : I32) (p : Pos), s' seed (magnify k p) = s seed p

/-- The same for values that are lengths (amplitudes, offsets, coordinates): they too grow by the factor `k`. -/
def ScaledBy (k : ℝ) (s s' : Src) : Prop := ∀ (seed : I32) (p : Pos), s' seed (magnify k p) = s seed p * k

/-- The same for the cellular distance, which may yield no number (C27). -/
def ZoomedPartial (k : ℝ) (s s' : I32 → Pos → Option ℝ) : Prop := ∀ (seed : I32) (p : Pos), s' seed (magnify k p) = s seed p

/-- A warp whose displacement is proportional to the amplitude. -/
def Proportional (w : WarpFn) : Prop := ∀ (k : ℝ) (seed : I32) (amp : ℝ) (x out : Pos), out.length = x.length →
  w seed (amp * k) x (magnify k out) = (magnify k (w seed amp x out).1, (w seed amp x out).2) ∧ (w seed amp x out).1.length = x.length

/-! ## Lemmas -/

theorem length_magnify (k : ℝ) (p : Pos) : (magnify k p).length = p.length := by simp [magnify]

theorem scaled_magnify {k : ℝ} (hk : k ≠ 0) (scale : ℝ) (p : Pos) :
    scalePositions (frequency (scale * k)) (magnify k p) = scalePositions (frequency scale) p := by
  unfold scalePositions frequency magnify
  rw [List.map_map]
  congr 1; funext x
  by_cases hs : scale = 0
  · subst hs; simp
  · simp only [Function.comp]; field_simp

theorem magnify_map (k c : ℝ) (p : Pos) : (magnify k p).map (· * c) = magnify k (p.map (· * c)) := by
  unfold magnify
  rw [List.map_map, List.map_map]
  congr 1; funext x; simp only [Function.comp]; ring

theorem ScaledBy.const (k v : ℝ) : ScaledBy k (Src.const v) (Src.const (v * k)) := fun _ _ => rfl
theorem ZoomedBy.const (k v : ℝ) : ZoomedBy k (Src.const v) (Src.const v) := fun _ _ => rfl

/-! ## Sources -/

/-- **C78** (sources): a noise with `k` times the feature size is the noise magnified by `k`. -/
theorem C78_noises {k : ℝ} (hk : k ≠ 0) (ft : Feat) (r : Range ℝ) (scale v : ℝ) (off : I32) :
    ZoomedBy k (constant v) (constant v) ∧
    ZoomedBy k (value r scale off) (value r (scale * k) off) ∧
    ZoomedBy k (perlin ft r scale off) (perlin ft r (scale * k) off) ∧
    ZoomedBy k (simplex ft r scale off) (simplex ft r (scale * k) off) ∧
    ZoomedBy k (superSimplex ft r scale off) (superSimplex ft r (scale * k) off) ∧
    ZoomedBy k (checkerboard r (frequency scale)) (checkerboard r (frequency (scale * k))) ∧
    ZoomedBy k (sineWave r (frequency scale)) (sineWave r (frequency (scale * k))) := by
  refine ⟨fun _ _ => rfl, ?_, ?_, ?_, ?_, ?_, ?_⟩ <;> intro seed p
  · simp only [value, scaled_magnify hk]
  · simp only [perlin, scaled_magnify hk, length_magnify]
  · simp only [simplex, scaled_magnify hk, length_magnify]
  · simp only [superSimplex, scaled_magnify hk, length_magnify]
  · simp only [checkerboard, scaled_magnify hk]
  · simp only [sineWave, scaled_magnify hk]

theorem gradientLoop_zoom {k : ℝ} (hk : k ≠ 0) {offset offset' : Nat → Src} (h : ∀ i, ScaledBy k (offset i) (offset' i)) (mult : Nat → ℝ) (seed : I32) (full : Pos) :
    ∀ (ps : Pos) (i : Nat) (r : ℝ), gradientLoop offset' (fun j => mult j / k) seed (magnify k full) i (magnify k ps) r = gradientLoop offset mult seed full i ps r := by
  intro ps
  induction ps with
  | nil => intro i r; rfl
  | cons p ps ih =>
    intro i r
    have e : magnify k (p :: ps) = (p * k) :: magnify k ps := rfl
    rw [e]
    simp only [gradientLoop]
    rw [ih, h i seed full]
    congr 1
    unfold fma
    field_simp

/-- **C78**: so is a gradient with `k` times the offsets and a `k`th of the multipliers. -/
theorem C78_gradient {k : ℝ} (hk : k ≠ 0) {offset offset' : Nat → Src} (h : ∀ i, ScaledBy k (offset i) (offset' i)) (mult : Nat → ℝ) :
    ZoomedBy k (gradient offset mult) (gradient offset' fun j => mult j / k) :=
  fun seed p => gradientLoop_zoom hk h mult seed p p 0 0

theorem subPoint_zoom {k : ℝ} {point point' : Nat → Src} (h : ∀ i, ScaledBy k (point i) (point' i)) (seed : I32) (full : Pos) :
    ∀ (ps : Pos) (i : Nat), subPoint point' seed (magnify k full) i (magnify k ps) = magnify k (subPoint point seed full i ps) := by
  intro ps
  induction ps with
  | nil => intro i; rfl
  | cons p ps ih =>
    intro i
    have e : magnify k (p :: ps) = (p * k) :: magnify k ps := rfl
    rw [e]
    simp only [subPoint]
    rw [ih, h i seed full, ← sub_mul]; rfl

/-- **C78**: the distance to a point that moves along grows by the factor `k`. -/
theorem C78_distance {k : ℝ} (hk : 0 < k) (relaxed : Bool) (fn : DistFn) (hfn : fn = .euclidean ∨ fn = .manhattan ∨ fn = .maxAxis) (mp mp' : Src)
    {point point' : Nat → Src} (h : ∀ i, ScaledBy k (point i) (point' i)) :
    ScaledBy k (distanceToPoint relaxed fn mp point) (distanceToPoint relaxed fn mp' point') := by
  intro seed p
  simp only [distanceToPoint]
  rw [subPoint_zoom h seed p p 0]
  rcases subPoint point seed p 0 p with _ | ⟨x, rest⟩
  · simp [magnify]
  show calcDistance relaxed true fn mp' seed (x * k) (magnify k rest) = calcDistance relaxed true fn mp seed x rest * k
  have hs : ∀ (l : Pos) (a : ℝ), (magnify k l).foldl (fun d p => fma p p d) (a * k ^ 2) = l.foldl (fun d p => fma p p d) a * k ^ 2 := by
    intro l
    induction l with
    | nil => intro a; rfl
    | cons b l ih =>
      intro a
      show (magnify k l).foldl _ (fma (b * k) (b * k) (a * k ^ 2)) = _
      rw [show fma (b * k) (b * k) (a * k ^ 2) = fma b b a * k ^ 2 by unfold fma; ring, ih]; rfl
  have hp : ∀ l : Pos, foldPlus (fun p => |p|) (magnify k l) = foldPlus (fun p => |p|) l * k := by
    intro l
    induction l with
    | nil => simp [magnify, foldPlus]
    | cons b l ih =>
      rcases l with _ | ⟨c, l⟩
      · simp [magnify, foldPlus, abs_mul, abs_of_pos hk]
      · show |b * k| + foldPlus (fun p => |p|) (magnify k (c :: l)) = (|b| + foldPlus (fun p => |p|) (c :: l)) * k
        rw [ih, abs_mul, abs_of_pos hk]; ring
  have hm : ∀ (l : Pos) (a : ℝ), (magnify k l).foldl (fun m p => max |p| m) (a * k) = l.foldl (fun m p => max |p| m) a * k := by
    intro l
    induction l with
    | nil => intro a; rfl
    | cons b l ih =>
      intro a
      show (magnify k l).foldl _ (max |b * k| (a * k)) = _
      rw [show max |b * k| (a * k) = max |b| a * k by rw [abs_mul, abs_of_pos hk, max_mul_of_nonneg _ _ hk.le], ih]; rfl
  have hroot : ∀ a : ℝ, fastLengthSqrt relaxed a = √a := by
    intro a
    unfold fastLengthSqrt
    split_ifs with h1 h2
    · rw [mul_one_div, Real.div_sqrt]
    · rw [not_not.mp h2, Real.sqrt_zero]
    · rfl
  rcases hfn with e | e | e <;> subst e <;> simp only [calcDistance, if_true]
  · rw [hroot, hroot]
    unfold sumSq
    rw [show x * k * (x * k) = x * x * k ^ 2 by ring, hs, Real.sqrt_mul' _ (by positivity), Real.sqrt_sq hk.le]
  · rw [hp, abs_mul, abs_of_pos hk]; ring
  · rw [show |x * k| = |x| * k by rw [abs_mul, abs_of_pos hk], hm]

theorem tab_magnify (k : ℝ) (p : Pos) : Cellular.tab (magnify k p) = Cellular.tab p := by simp [Cellular.tab, length_magnify]

/-- The cellular settings with `k` times the feature size and other sources of the jitters. -/
def cellularZoom (k : ℝ) (c : Cellular.Cfg) (grid size : Src) : Cellular.Cfg := { c with scale := c.scale * k, gridJitter := grid, sizeNode := size }

theorem scanned_zoom {k : ℝ} (hk : k ≠ 0) (relaxed doSqrt : Bool) (c : Cellular.Cfg) {grid size : Src} (hg : ZoomedBy k c.gridJitter grid) (hs : ZoomedBy k c.sizeNode size)
    (seed : I32) (p : Pos) : Cellular.scanned relaxed doSqrt (cellularZoom k c grid size) seed (magnify k p) = Cellular.scanned relaxed doSqrt c seed p := by
  have h1 : (cellularZoom k c grid size).sizeSrc seed (magnify k p) = c.sizeSrc seed p := by
    unfold Cellular.Cfg.sizeSrc
    show (if c.sizeIsNode then size else Src.const c.sizeConst) seed (magnify k p) = _
    split_ifs
    · exact hs seed p
    · rfl
  have h2 : (cellularZoom k c grid size).gridJitter seed (magnify k p) = c.gridJitter seed p := hg seed p
  have h3 : scalePositions (frequency (cellularZoom k c grid size).scale) (magnify k p) = scalePositions (frequency c.scale) p := scaled_magnify hk _ _
  unfold Cellular.scanned
  rw [h1, h2, h3, tab_magnify]
  rfl

/-- **C78** (cellular noise): with the jitters zoomed along; the node whose values Cellular Lookup shows is zoomed too. -/
theorem C78_cellular {k : ℝ} (hk : k ≠ 0) (relaxed : Bool) (r : Range ℝ) (c : Cellular.Cfg) {grid size lookup lookup' : Src}
    (hg : ZoomedBy k c.gridJitter grid) (hs : ZoomedBy k c.sizeNode size) (hl : ZoomedBy k lookup lookup') (rt : Cellular.ReturnType) (i i0 i1 : Nat) (junk : List I32) (junkPos : List ℝ) :
    ZoomedBy k (Cellular.cellularValue relaxed r c i junk) (Cellular.cellularValue relaxed r (cellularZoom k c grid size) i junk) ∧
    ZoomedPartial k (Cellular.cellularDistance relaxed r c rt i0 i1) (Cellular.cellularDistance relaxed r (cellularZoom k c grid size) rt i0 i1) ∧
    ZoomedBy k (Cellular.cellularLookup relaxed c lookup junkPos) (Cellular.cellularLookup relaxed (cellularZoom k c grid size) lookup' junkPos) := by
  refine ⟨fun seed p => ?_, fun seed p => ?_, fun seed p => ?_⟩
  · simp only [Cellular.cellularValue, length_magnify, scanned_zoom hk relaxed _ c hg hs]
  · simp only [Cellular.cellularDistance, tab_magnify, scanned_zoom hk relaxed _ c hg hs]; rfl
  · simp only [Cellular.cellularLookup, scanned_zoom hk relaxed _ c hg hs]
    rw [← hl]
    congr 1
    unfold magnify
    rw [List.map_map]
    congr 1; funext x
    show x * (c.scale * k) = x * c.scale * k
    ring

/-! ## Nodes -/

variable {k : ℝ} {a a' b b' s s' : Src}

/-- **C78** (values): blends and value modifiers of zoomed nodes are zoomed; of lengths, Add, Subtract, Min, Max and Abs are lengths. -/
theorem C78_values (ha : ZoomedBy k a a') (hb : ZoomedBy k b b') (hs : ZoomedBy k s s') (op : Op) (n : ℤ) (relaxed : Bool) :
    ZoomedBy k (Modifiers.blend op a b) (Modifiers.blend op a' b') ∧
    ZoomedBy k (powFloat a b) (powFloat a' b') ∧
    ZoomedBy k (powInt n a) (powInt n a') ∧
    ZoomedBy k (minSmooth s a b) (minSmooth s' a' b') ∧
    ZoomedBy k (maxSmooth s a b) (maxSmooth s' a' b') ∧
    ZoomedBy k (pingPong a b) (pingPong a' b') ∧
    ZoomedBy k (signedSqrt relaxed a) (signedSqrt relaxed a') ∧
    ZoomedBy k (absNode a) (absNode a') := by
  refine ⟨?_, ?_, ?_, ?_, ?_, ?_, ?_, ?_⟩ <;> intro seed p
  · simp only [Modifiers.blend, ha seed p, hb seed p]
  · simp only [powFloat, ha seed p, hb seed p]
  · simp only [powInt, ha seed p]
  · simp only [minSmooth, ha seed p, hb seed p, hs seed p]
  · simp only [maxSmooth, ha seed p, hb seed p, hs seed p]
  · simp only [pingPong, ha seed p, hb seed p]
  · simp only [signedSqrt, ha seed p]
  · simp only [absNode, ha seed p]

/-- **C78** (Fade, Remap, Terrace). -/
theorem C78_ranges {f f' lo lo' hi hi' : Src} (ha : ZoomedBy k a a') (hb : ZoomedBy k b b') (hs : ZoomedBy k s s') (hf : ZoomedBy k f f') (hlo : ZoomedBy k lo lo')
    (hhi : ZoomedBy k hi hi') (i : Interpolation) (clamp : Bool) (t : TerraceSt) :
    ZoomedBy k (fade i a b f lo hi) (fade i a' b' f' lo' hi') ∧
    ZoomedBy k (remap clamp lo hi a b s) (remap clamp lo' hi' a' b' s') ∧
    ZoomedBy k (terrace { t with smoothGen := none } s) (terrace { t with smoothGen := none } s') ∧
    ZoomedBy k (terrace { t with smoothGen := some a } s) (terrace { t with smoothGen := some a' } s') := by
  refine ⟨?_, ?_, ?_, ?_⟩ <;> intro seed p
  · simp only [fade, ha seed p, hb seed p, hf seed p, hlo seed p, hhi seed p]
  · simp only [remap, ha seed p, hb seed p, hs seed p, hlo seed p, hhi seed p]
  · simp only [terrace, hs seed p]
  · simp only [terrace, hs seed p, ha seed p]

theorem mapIdx_magnify (f g : Nat → ℝ → ℝ) (h : ∀ i x, f i (x * k) = g i x * k) (p : Pos) : (magnify k p).mapIdx f = magnify k (p.mapIdx g) := by
  unfold magnify
  apply List.ext_getElem
  · simp
  · intro i h1 h2; simp [h]

/-- **C78** (domain modifiers): positions and seeds are changed alike; an offset or a new coordinate is a length. -/
theorem C78_domain (hs : ZoomedBy k s s') {o o' : Nat → Src} (ho : ∀ i, ScaledBy k (o i) (o' i)) {w w' : Src} (hw : ScaledBy k w w')
    (c : ℝ) (axes : Nat → ℝ) (r : Rot) (t : Plane) (off : I32) (dim : Nat) :
    ZoomedBy k (domainScale c s) (domainScale c s') ∧
    ZoomedBy k (domainAxisScale axes s) (domainAxisScale axes s') ∧
    ZoomedBy k (domainOffset o s) (domainOffset o' s') ∧
    ZoomedBy k (domainRotate r s) (domainRotate r s') ∧
    ZoomedBy k (domainRotatePlane t s) (domainRotatePlane t s') ∧
    ZoomedBy k (seedOffset off s) (seedOffset off s') ∧
    ZoomedBy k (addDimension w s) (addDimension w' s') ∧
    ZoomedBy k (removeDimension dim s) (removeDimension dim s') := by
  refine ⟨?_, ?_, ?_, ?_, ?_, ?_, ?_, ?_⟩ <;> intro seed p
  · simp only [domainScale]; rw [magnify_map, hs]
  · simp only [domainAxisScale]
    rw [mapIdx_magnify _ (fun i x => x * axes i) (by intro i x; ring), hs]
  · simp only [domainOffset]
    rw [mapIdx_magnify _ (fun i x => x + o i seed p) (by intro i x; rw [ho i seed p]; ring), hs]
  · simp only [domainRotate]
    rw [← hs]
    congr 1
    rcases p with _ | ⟨x, _ | ⟨y, _ | ⟨z, _ | ⟨w, p⟩⟩⟩⟩ <;> simp only [magnify, List.map, rotatePos]
    · split_ifs <;> simp only [rotate3, fma, fnma, List.map, List.cons.injEq, and_true] <;> refine ⟨?_, ?_⟩ <;> (try refine ⟨?_, ?_⟩) <;> ring
    · simp only [rotate3, fma, List.map, List.cons.injEq, and_true]
      refine ⟨?_, ?_, ?_⟩ <;> ring
  · simp only [domainRotatePlane]
    rw [← hs]
    congr 1
    rcases p with _ | ⟨x, _ | ⟨y, _ | ⟨z, _ | ⟨w, _ | ⟨v, p⟩⟩⟩⟩⟩ <;> simp only [magnify, List.map, rotatePlanePos] <;> cases t <;>
      simp only [rotateCoords, List.cons.injEq, and_true] <;> refine ⟨?_, ?_, ?_⟩ <;> ring
  · exact hs _ p
  · simp only [addDimension, length_magnify]
    split_ifs
    · exact hs seed p
    · rw [hw seed p, ← hs]; simp [magnify]
  · rcases p with _ | ⟨x, _ | ⟨y, _ | ⟨z, _ | ⟨w, _ | ⟨v, p⟩⟩⟩⟩⟩ <;> simp only [magnify, List.map, removeDimension] <;> (try split_ifs) <;> (rw [← hs]; rfl)

theorem fbmLoop_zoom (hs : ZoomedBy k s s') (gain ws lac : ℝ) : ∀ (n : Nat) (seed : I32) (p : Pos) (amp noise sum : ℝ),
    fbmLoop s' gain ws lac n seed (magnify k p) amp noise sum = fbmLoop s gain ws lac n seed p amp noise sum := by
  intro n
  induction n with
  | zero => intros; rfl
  | succ n ih => intro seed p amp noise sum; simp only [fbmLoop]; rw [magnify_map, hs, ih]

theorem ridgedLoop_zoom (hs : ZoomedBy k s s') (gain ws lac : ℝ) : ∀ (n : Nat) (seed : I32) (p : Pos) (amp noise sum : ℝ),
    ridgedLoop s' gain ws lac n seed (magnify k p) amp noise sum = ridgedLoop s gain ws lac n seed p amp noise sum := by
  intro n
  induction n with
  | zero => intros; rfl
  | succ n ih => intro seed p amp noise sum; simp only [ridgedLoop]; rw [magnify_map, hs, ih]

/-- **C78** (fractals): octaves and lacunarity unchanged. -/
theorem C78_fractals (hs : ZoomedBy k s s') {g g' w w' : Src} (hg : ZoomedBy k g g') (hw : ZoomedBy k w w') (octaves : ℤ) (lac : ℝ) :
    ZoomedBy k (fbm ⟨g, w, octaves, lac⟩ s) (fbm ⟨g', w', octaves, lac⟩ s') ∧
    ZoomedBy k (ridged ⟨g, w, octaves, lac⟩ s) (ridged ⟨g', w', octaves, lac⟩ s') := by
  constructor <;> intro seed p
  · simp only [fbm, hg seed p, hw seed p, hs seed p, fbmLoop_zoom hs]
  · simp only [ridged, hg seed p, hw seed p, hs seed p, ridgedLoop_zoom hs]

/-! ## Domain warps -/

theorem matchOrientation_length (sch : WarpGrad.Scheme) (c : ℝ) (v : List ℝ) : (WarpSimplex.matchOrientation sch c v).length = v.length := by
  unfold WarpSimplex.matchOrientation
  split <;> simp

theorem finish_proportional (b : ℝ) (axes : Nat → ℝ) (amp : ℝ) (value out : List ℝ) (hl : out.length = value.length) (k : ℝ) :
    WarpSimplex.finish b axes (amp * k) value (magnify k out) = (magnify k (WarpSimplex.finish b axes amp value out).1, (WarpSimplex.finish b axes amp value out).2) ∧
    (WarpSimplex.finish b axes amp value out).1.length = value.length := by
  refine ⟨?_, by simp [WarpSimplex.finish, hl]⟩
  simp only [WarpSimplex.finish, Prod.mk.injEq, and_true]
  unfold magnify
  apply List.ext_getElem
  · simp
  · intro i h1 h2
    simp only [List.getElem_zipWith, List.getElem_map, fma]
    ring

/-- **C78**: the displacement of every warp is proportional to its amplitude. -/
theorem C78_proportional (off : I32) (axes : Nat → ℝ) (sch : WarpGrad.Scheme) (ft : Feat) :
    Proportional (gradientWarp off axes) ∧ Proportional (WarpSimplex.simplexWarp sch ft off axes) ∧ Proportional (WarpSimplex.superSimplexWarp sch ft axes) := by
  refine ⟨?_, ?_, ?_⟩ <;> intro k seed amp x out hl
  · refine ⟨?_, by simp [gradientWarp, hl]⟩
    simp only [gradientWarp, Prod.mk.injEq, and_true]
    exact mapIdx_magnify _ _ (by intro i x; unfold fma; ring) out
  · have := finish_proportional (WarpSimplex.simplexBounding sch x.length) axes amp
      (WarpSimplex.matchOrientation sch (-2 / 2) ((List.range x.length).map fun k => simplexRaw (WarpSimplex.vecRamp sch ft k) (seed + off) x)) out
      (by rw [matchOrientation_length]; simp [hl]) k
    refine ⟨this.1, this.2.trans ?_⟩
    rw [matchOrientation_length]; simp
  · have := finish_proportional (WarpSimplex.superBounding sch x.length) axes amp
      (WarpSimplex.matchOrientation sch (-2 / 3) ((List.range x.length).map fun k => superRaw (WarpSimplex.vecRamp sch ft k) seed x)) out
      (by rw [matchOrientation_length]; simp [hl]) k
    refine ⟨this.1, this.2.trans ?_⟩
    rw [matchOrientation_length]; simp

/-- **C78** (domain warps): with `k` times the feature size and the amplitude. -/
theorem C78_warp (hk : k ≠ 0) {w : WarpFn} (hw : Proportional w) (hs : ZoomedBy k s s') {amp amp' : Src} (ha : ScaledBy k amp amp') (off : I32) (scale : ℝ) :
    ZoomedBy k (domainWarp w off scale amp s) (domainWarp w off (scale * k) amp' s') := by
  intro seed p
  simp only [domainWarp]
  rw [scaled_magnify hk, ha seed p, (hw k _ _ _ p (by simp [scalePositions])).1]
  exact hs seed _

theorem progressiveLoop_zoom (hk : k ≠ 0) {w : WarpFn} (hw : Proportional w) (relaxed : Bool) (gain ws lac : ℝ) : ∀ (n : Nat) (seed : I32) (freq amp : ℝ) (st : Pos × ℝ),
    progressiveLoop relaxed w gain ws lac n seed (freq / k) (amp * k) (magnify k st.1, st.2) = magnify k (progressiveLoop relaxed w gain ws lac n seed freq amp st) := by
  intro n
  induction n with
  | zero => intros; rfl
  | succ n ih =>
    intro seed freq amp st
    simp only [progressiveLoop]
    have e1 : (magnify k st.1).map (· * (freq / k * lac)) = st.1.map (· * (freq * lac)) := by
      unfold magnify; rw [List.map_map]; congr 1; funext x; simp only [Function.comp]; field_simp
    have e2 : amp * k * lerp 1 (1 - fastLengthSqrt relaxed st.2) ws * gain = amp * lerp 1 (1 - fastLengthSqrt relaxed st.2) ws * gain * k := by ring
    have e3 : freq / k * lac = freq * lac / k := by ring
    rw [e1, e2, e3, (hw k _ _ _ st.1 (by simp)).1]
    exact ih _ _ _ _

theorem independentLoop_zoom (hk : k ≠ 0) {w : WarpFn} (hw : Proportional w) (relaxed : Bool) (gain ws lac : ℝ) (p : Pos) : ∀ (n : Nat) (seed : I32) (freq amp : ℝ) (st : Pos × ℝ),
    st.1.length = p.length → independentLoop relaxed w gain ws lac (magnify k p) n seed (freq / k) (amp * k) (magnify k st.1, st.2) =
      magnify k (independentLoop relaxed w gain ws lac p n seed freq amp st) := by
  intro n
  induction n with
  | zero => intros; rfl
  | succ n ih =>
    intro seed freq amp st hl
    simp only [independentLoop]
    have e1 : (magnify k p).map (· * (freq / k * lac)) = p.map (· * (freq * lac)) := by
      unfold magnify; rw [List.map_map]; congr 1; funext x; simp only [Function.comp]; field_simp
    have e2 : amp * k * lerp 1 (1 - fastLengthSqrt relaxed st.2) ws * gain = amp * lerp 1 (1 - fastLengthSqrt relaxed st.2) ws * gain * k := by ring
    have e3 : freq / k * lac = freq * lac / k := by ring
    have h := hw k (seed - (-1)) (amp * lerp 1 (1 - fastLengthSqrt relaxed st.2) ws * gain) (p.map (· * (freq * lac))) st.1 (by simp [hl])
    rw [e1, e2, e3, h.1]
    exact ih _ _ _ _ (by rw [h.2]; simp)

/-- **C78** (fractal domain warps). -/
theorem C78_warp_fractals (hk : k ≠ 0) {w : WarpFn} (hw : Proportional w) (hs : ZoomedBy k s s') {amp amp' g g' ws ws' : Src} (ha : ScaledBy k amp amp')
    (hg : ZoomedBy k g g') (hws : ZoomedBy k ws ws') (relaxed : Bool) (octaves : ℤ) (scale lac : ℝ) :
    ZoomedBy k (progressive relaxed ⟨g, ws, octaves, lac⟩ w scale amp s) (progressive relaxed ⟨g', ws', octaves, lac⟩ w (scale * k) amp' s') ∧
    ZoomedBy k (independent relaxed ⟨g, ws, octaves, lac⟩ w scale amp s) (independent relaxed ⟨g', ws', octaves, lac⟩ w (scale * k) amp' s') := by
  have ef : frequency (scale * k) = frequency scale / k := by unfold frequency; rw [div_div]
  have ep : ∀ p : Pos, (magnify k p).map (· * frequency (scale * k)) = p.map (· * frequency scale) := fun p => scaled_magnify hk scale p
  constructor <;> intro seed p
  · simp only [progressive]
    rw [ep, ef, ha seed p, hg seed p, hws seed p, (hw k _ _ _ p (by simp)).1, progressiveLoop_zoom hk hw, hs]
  · simp only [independent]
    have h := hw k seed (amp seed p) (p.map (· * frequency scale)) p (by simp)
    rw [ep, ef, ha seed p, hg seed p, hws seed p, h.1, independentLoop_zoom hk hw _ _ _ _ _ _ _ _ _ _ (by rw [h.2]; simp), hs]

/-- **C78**: so a tree can be magnified without touching it, by a Domain Scale in front. -/
theorem C78_domainScale (h : ZoomedBy k s s') : domainScale k s' = s := by
  funext seed p; exact h seed p

/-- A tree: five octaves of Simplex noise, warped, plus a sine wave. -/
def sampleTree (z : ℝ) (ft : Feat) (r : Range ℝ) : Src :=
  Modifiers.blend .add (domainWarp (gradientWarp 3 fun _ => 1) 3 (50 * z) (Src.const (20 * z)) (fbm ⟨Src.const (1 / 2), Src.const 0, 5, 2⟩ (simplex ft r (100 * z) 0)))
    (sineWave r (frequency (30 * z)))

example (ft : Feat) (r : Range ℝ) : ZoomedBy 2 (sampleTree 1 ft r) (sampleTree 2 ft r) := by
  have h2 : (2 : ℝ) ≠ 0 := by norm_num
  have e : ∀ c : ℝ, c * 2 = c * 1 * 2 := fun c => by ring
  unfold sampleTree
  rw [e 50, e 20, e 100, e 30]
  refine (C78_values (C78_warp h2 (C78_proportional 3 _ .gradientOuterProduct ft).1 (C78_fractals (C78_noises h2 ft r _ 0 0).2.2.2.1 (.const 2 _) (.const 2 _) 5 2).1 (.const 2 _) 3 _)
    (C78_noises h2 ft r _ 0 0).2.2.2.2.2.2 (.const 2 0) .add 2 true).1

end
end FastNoise.Zoom
