import Verif.ModifiersLemmas
/-! # C32 (modifiers of the position) -/
namespace FastNoise.Modifiers
open FastNoise.Hash FastNoise.Num FastNoise.Basic

/-! ## Specification -/

/-- Squared Euclidean distance of two positions. -/
noncomputable def sqDist (p q : Pos) : ℝ := (List.zipWith (fun a b => (a - b) ^ 2) p q).sum

/-- The angles in effect after a sequence of setter calls: the last ones set, 0 at first. -/
def angles : List RotOp → ℝ × ℝ × ℝ → ℝ × ℝ × ℝ
  | [], a => a
  | .yaw v :: r, a => angles r (v, a.2)
  | .pitch v :: r, a => angles r (a.1, v, a.2.2)
  | .roll v :: r, a => angles r (a.1, a.2.1, v)

/-- Rotation about the x axis. -/
noncomputable def rotX (t : ℝ) (p : ℝ × ℝ × ℝ) : ℝ × ℝ × ℝ := (p.1, p.2.1 * Real.cos t - p.2.2 * Real.sin t, p.2.1 * Real.sin t + p.2.2 * Real.cos t)
/-- Rotation about the y axis. -/
noncomputable def rotY (t : ℝ) (p : ℝ × ℝ × ℝ) : ℝ × ℝ × ℝ := (p.1 * Real.cos t + p.2.2 * Real.sin t, p.2.1, -p.1 * Real.sin t + p.2.2 * Real.cos t)
/-- Rotation about the z axis. -/
noncomputable def rotZ (t : ℝ) (p : ℝ × ℝ × ℝ) : ℝ × ℝ × ℝ := (p.1 * Real.cos t - p.2.1 * Real.sin t, p.1 * Real.sin t + p.2.1 * Real.cos t, p.2.2)
/-- Roll about x, then pitch about y, then yaw about z. -/
noncomputable def eulerRotate (a : ℝ × ℝ × ℝ) (p : ℝ × ℝ × ℝ) : ℝ × ℝ × ℝ := rotZ a.1 (rotY a.2.1 (rotX a.2.2 p))

/-! ## State of the node -/

/-- The node's members for given angles. -/
def Holds (r : Rot) (a : ℝ × ℝ × ℝ) : Prop :=
  r = r.calculate ∧ r.yawCos = Real.cos a.1 ∧ r.yawSin = Real.sin a.1 ∧ r.pitchCos = Real.cos a.2.1 ∧ r.pitchSin = Real.sin a.2.1 ∧
    r.rollCos = Real.cos a.2.2 ∧ r.rollSin = Real.sin a.2.2

theorem holds_foldl : ∀ (ops : List RotOp) (r : Rot) (a : ℝ × ℝ × ℝ), Holds r a → Holds (ops.foldl Rot.set r) (angles ops a)
  | [], _, _, h => h
  | .yaw v :: ops, r, a, h => holds_foldl ops (r.set (.yaw v)) (v, a.2) ⟨rfl, rfl, rfl, h.2.2.2.1, h.2.2.2.2.1, h.2.2.2.2.2.1, h.2.2.2.2.2.2⟩
  | .pitch v :: ops, r, a, h => holds_foldl ops (r.set (.pitch v)) (a.1, v, a.2.2) ⟨rfl, h.2.1, h.2.2.1, rfl, rfl, h.2.2.2.2.2.1, h.2.2.2.2.2.2⟩
  | .roll v :: ops, r, a, h => holds_foldl ops (r.set (.roll v)) (a.1, a.2.1, v) ⟨rfl, h.2.1, h.2.2.1, h.2.2.2.1, h.2.2.2.2.1, rfl, rfl⟩

theorem holds_after (ops : List RotOp) : Holds (Rot.after ops) (angles ops (0, 0, 0)) :=
  holds_foldl ops {} (0, 0, 0) ⟨by simp [Rot.calculate], by simp, by simp, by simp, by simp, by simp, by simp⟩

theorem rotate3_euler {r : Rot} {a : ℝ × ℝ × ℝ} (h : Holds r a) (x y z : ℝ) :
    rotate3 r x y z = [(eulerRotate a (x, y, z)).1, (eulerRotate a (x, y, z)).2.1, (eulerRotate a (x, y, z)).2.2] := by
  obtain ⟨hc, h1, h2, h3, h4, h5, h6⟩ := h
  rw [hc]
  simp only [rotate3, Rot.calculate, Num.fma, h1, h2, h3, h4, h5, h6, eulerRotate, rotX, rotY, rotZ]
  congr 1
  · ring
  congr 1
  · ring
  congr 1
  ring

theorem rotatePos2 (r : Rot) (x y : ℝ) : rotatePos r [x, y] =
    if r.pitchSin = 0 ∧ r.rollSin = 0 then [fnma y r.yawSin (x * r.yawCos), fma x r.yawSin (y * r.yawCos)] else rotate3 r x y 0 := rfl
theorem rotatePos3 (r : Rot) (x y z : ℝ) : rotatePos r [x, y, z] = rotate3 r x y z := rfl

/-! ## C32: DomainRotate -/

/-- **C32**: in 3D the source is evaluated at the position rolled, pitched and yawed by the last angles set, in whatever order they were set. -/
theorem C32_rotate_3d (ops : List RotOp) (source : Src) (seed : I32) (x y z : ℝ) :
    let q := eulerRotate (angles ops (0, 0, 0)) (x, y, z)
    domainRotate (Rot.after ops) source seed [x, y, z] = source seed [q.1, q.2.1, q.2.2] := by
  intro q
  unfold domainRotate
  rw [rotatePos3, rotate3_euler (holds_after ops)]

/-- **C32**: in 2D, without pitch and roll, the position is turned by the yaw and stays 2D. -/
theorem C32_rotate_2d (ops : List RotOp) (source : Src) (seed : I32) (x y : ℝ) (hp : (angles ops (0, 0, 0)).2.1 = 0) (hr : (angles ops (0, 0, 0)).2.2 = 0) :
    let q := rotZ (angles ops (0, 0, 0)).1 (x, y, 0)
    domainRotate (Rot.after ops) source seed [x, y] = source seed [q.1, q.2.1] := by
  intro q
  obtain ⟨hc, h1, h2, h3, h4, h5, h6⟩ := holds_after ops
  unfold domainRotate
  rw [rotatePos2, if_pos ⟨by rw [h4, hp, Real.sin_zero], by rw [h6, hr, Real.sin_zero]⟩, h1, h2]
  congr 1
  simp only [q, rotZ, fnma, Num.fma]
  congr 1
  · ring

/-- **C32**: in 2D with a pitch or roll that tilts the plane, the position is rotated in 3D as a point with z = 0. -/
theorem C32_rotate_2d_lifted (ops : List RotOp) (source : Src) (seed : I32) (x y : ℝ)
    (h : Real.sin (angles ops (0, 0, 0)).2.1 ≠ 0 ∨ Real.sin (angles ops (0, 0, 0)).2.2 ≠ 0) :
    domainRotate (Rot.after ops) source seed [x, y] = domainRotate (Rot.after ops) source seed [x, y, 0] := by
  obtain ⟨hc, h1, h2, h3, h4, h5, h6⟩ := holds_after ops
  unfold domainRotate
  rw [rotatePos2, rotatePos3, if_neg]
  rintro ⟨a, b⟩
  rw [h4] at a; rw [h6] at b
  rcases h with h | h <;> contradiction

/-- **C32**: in 4D nothing is rotated. -/
theorem C32_rotate_4d (r : Rot) (source : Src) (seed : I32) (x y z w : ℝ) : domainRotate r source seed [x, y, z, w] = source seed [x, y, z, w] := rfl

theorem euler_linear (a p q : ℝ × ℝ × ℝ) : eulerRotate a p - eulerRotate a q = eulerRotate a (p - q) := by
  simp only [eulerRotate, rotX, rotY, rotZ, Prod.fst_sub, Prod.snd_sub, Prod.mk_sub_mk]
  refine Prod.ext ?_ (Prod.ext ?_ ?_) <;> simp only [] <;> ring

theorem euler_norm (a p : ℝ × ℝ × ℝ) :
    (eulerRotate a p).1 ^ 2 + (eulerRotate a p).2.1 ^ 2 + (eulerRotate a p).2.2 ^ 2 = p.1 ^ 2 + p.2.1 ^ 2 + p.2.2 ^ 2 := by
  have key : ∀ t u v : ℝ, (u * Real.cos t - v * Real.sin t) ^ 2 + (u * Real.sin t + v * Real.cos t) ^ 2 = u ^ 2 + v ^ 2 := by
    intro t u v
    have := Real.sin_sq_add_cos_sq t
    linear_combination (u ^ 2 + v ^ 2) * this
  have key2 : ∀ t u v : ℝ, (u * Real.cos t + v * Real.sin t) ^ 2 + (-u * Real.sin t + v * Real.cos t) ^ 2 = u ^ 2 + v ^ 2 := by
    intro t u v
    have := Real.sin_sq_add_cos_sq t
    linear_combination (u ^ 2 + v ^ 2) * this
  have hx : ∀ p : ℝ × ℝ × ℝ, (rotX a.2.2 p).1 ^ 2 + (rotX a.2.2 p).2.1 ^ 2 + (rotX a.2.2 p).2.2 ^ 2 = p.1 ^ 2 + p.2.1 ^ 2 + p.2.2 ^ 2 := by
    intro p; have := key a.2.2 p.2.1 p.2.2; simp only [rotX]; linarith
  have hy : ∀ p : ℝ × ℝ × ℝ, (rotY a.2.1 p).1 ^ 2 + (rotY a.2.1 p).2.1 ^ 2 + (rotY a.2.1 p).2.2 ^ 2 = p.1 ^ 2 + p.2.1 ^ 2 + p.2.2 ^ 2 := by
    intro p; have := key2 a.2.1 p.1 p.2.2; simp only [rotY]; linarith
  have hz : ∀ p : ℝ × ℝ × ℝ, (rotZ a.1 p).1 ^ 2 + (rotZ a.1 p).2.1 ^ 2 + (rotZ a.1 p).2.2 ^ 2 = p.1 ^ 2 + p.2.1 ^ 2 + p.2.2 ^ 2 := by
    intro p; have := key a.1 p.1 p.2.1; simp only [rotZ]; linarith
  rw [eulerRotate, hz, hy, hx]

/-- **C32**: DomainRotate is rigid: after any setter calls, the distance between the transformed positions of two points equals the distance of the
points, in 2, 3 and 4 dimensions. -/
theorem C32_rigid (ops : List RotOp) (p q : Pos) (h : p.length = q.length) :
    sqDist (rotatePos (Rot.after ops) p) (rotatePos (Rot.after ops) q) = sqDist p q := by
  have hh := holds_after ops
  have h3 : ∀ x y z x' y' z' : ℝ, sqDist (rotate3 (Rot.after ops) x y z) (rotate3 (Rot.after ops) x' y' z') = (x - x') ^ 2 + (y - y') ^ 2 + (z - z') ^ 2 := by
    intro x y z x' y' z'
    rw [rotate3_euler hh, rotate3_euler hh]
    have e1 := euler_linear (angles ops (0, 0, 0)) (x, y, z) (x', y', z')
    have e2 := euler_norm (angles ops (0, 0, 0)) ((x, y, z) - (x', y', z'))
    rw [← e1] at e2
    simp only [Prod.fst_sub, Prod.snd_sub] at e2
    simp only [sqDist, List.zipWith_cons_cons, List.zipWith_nil_left, List.sum_cons, List.sum_nil]
    linarith
  match p, q, h with
  | [], [], _ => rfl
  | [_], [_], _ => rfl
  | [x, y], [x', y'], _ =>
    rw [rotatePos2, rotatePos2]
    split_ifs
    · have := Real.sin_sq_add_cos_sq (angles ops (0, 0, 0)).1
      simp only [sqDist, List.zipWith_cons_cons, List.zipWith_nil_left, List.sum_cons, List.sum_nil, fnma, Num.fma, hh.2.1, hh.2.2.1]
      linear_combination ((x - x') ^ 2 + (y - y') ^ 2) * this
    · rw [h3]; simp [sqDist]
  | [x, y, z], [x', y', z'], _ =>
    rw [rotatePos3, rotatePos3, h3]; simp only [sqDist, List.zipWith_cons_cons, List.zipWith_nil_left, List.sum_cons, List.sum_nil]; ring
  | _ :: _ :: _ :: _ :: _, _ :: _ :: _ :: _ :: _, _ => rfl

/-- **C32**: zero angles are the identity. -/
theorem C32_identity (ops : List RotOp) (h : angles ops (0, 0, 0) = (0, 0, 0)) (p : Pos) : rotatePos (Rot.after ops) p = p := by
  have hh := holds_after ops
  rw [h] at hh
  have h3 : ∀ x y z : ℝ, rotate3 (Rot.after ops) x y z = [x, y, z] := by
    intro x y z; rw [rotate3_euler hh]; simp [eulerRotate, rotX, rotY, rotZ]
  match p with
  | [] => rfl
  | [_] => rfl
  | [x, y] =>
    rw [rotatePos2, if_pos ⟨by simpa using hh.2.2.2.2.1, by simpa using hh.2.2.2.2.2.2⟩, hh.2.1, hh.2.2.1]
    simp [fnma, Num.fma]
  | [x, y, z] => exact h3 x y z
  | _ :: _ :: _ :: _ :: _ => rfl

/-- **C32**: the origin is the fixed point (in 2D it may be seen as the 3D origin). -/
theorem C32_origin (ops : List RotOp) : rotatePos (Rot.after ops) [0, 0, 0] = [0, 0, 0] ∧
    (rotatePos (Rot.after ops) [0, 0] = [0, 0] ∨ rotatePos (Rot.after ops) [0, 0] = [0, 0, 0]) := by
  have h3 : rotate3 (Rot.after ops) 0 0 0 = [0, 0, 0] := by simp [rotate3, Num.fma]
  refine ⟨h3, ?_⟩
  rw [rotatePos2]
  split_ifs
  · left; simp [fnma, Num.fma]
  · right; exact h3

example : angles [.yaw 1, .pitch 2, .yaw 0.5] (0, 0, 0) = (0.5, 2, 0) := rfl
example : angles [.yaw 1, .roll 0, .yaw 0] (0, 0, 0) = (0, 0, 0) := rfl

/-! ## C32: DomainRotatePlane -/

theorem plane_norm (x y z : ℝ) :
    |((x + (x + y) * kS2 - z * kThird) ^ 2 + (y + (x + y) * kS2 - z * kThird) ^ 2 + (z * kThird + (x + y) * kThird) ^ 2) - (x ^ 2 + y ^ 2 + z ^ 2)| ≤
      4 / 10 ^ 8 * (x ^ 2 + y ^ 2 + z ^ 2) := by
  have e : ((x + (x + y) * kS2 - z * kThird) ^ 2 + (y + (x + y) * kS2 - z * kThird) ^ 2 + (z * kThird + (x + y) * kThird) ^ 2) - (x ^ 2 + y ^ 2 + z ^ 2) =
      (2 * kS2 + 2 * kS2 ^ 2 + kThird ^ 2) * (x + y) ^ 2 + (3 * kThird ^ 2 - 1) * z ^ 2 + 2 * (kThird * (kThird - 1 - 2 * kS2)) * ((x + y) * z) := by ring
  have c3 : kThird * (kThird - 1 - 2 * kS2) = 0 := by norm_num [kThird, kS2]
  have c1 : |2 * kS2 + 2 * kS2 ^ 2 + kThird ^ 2| ≤ 2 / 10 ^ 8 := by rw [abs_le]; norm_num [kThird, kS2]
  have c2 : |3 * kThird ^ 2 - 1| ≤ 4 / 10 ^ 8 := by rw [abs_le]; norm_num [kThird, kS2]
  rw [e, c3]
  generalize 2 * kS2 + 2 * kS2 ^ 2 + kThird ^ 2 = a at *
  generalize 3 * kThird ^ 2 - 1 = b at *
  have h1 : |a * (x + y) ^ 2| ≤ 2 / 10 ^ 8 * (x + y) ^ 2 := by
    rw [abs_mul, abs_of_nonneg (sq_nonneg (x + y))]; exact mul_le_mul_of_nonneg_right c1 (sq_nonneg _)
  have h2 : |b * z ^ 2| ≤ 4 / 10 ^ 8 * z ^ 2 := by
    rw [abs_mul, abs_of_nonneg (sq_nonneg z)]; exact mul_le_mul_of_nonneg_right c2 (sq_nonneg _)
  have h3 : (x + y) ^ 2 ≤ 2 * (x ^ 2 + y ^ 2) := by nlinarith [sq_nonneg (x - y)]
  have := abs_add_le (a * (x + y) ^ 2) (b * z ^ 2)
  rw [mul_zero, zero_mul, add_zero]
  nlinarith

/-- **C32**: DomainRotatePlane is rigid up to the rounding of its two constants: squared distances change by at most four parts in 10^8. -/
theorem C32_plane_rigid (t : Plane) (p q : Pos) (h : p.length = q.length) (hl : p.length ≤ 4) :
    |sqDist (rotatePlanePos t p) (rotatePlanePos t q) - sqDist p q| ≤ 4 / 10 ^ 8 * sqDist p q := by
  match p, q, h, hl with
  | [], [], _, _ => norm_num [rotatePlanePos, sqDist]
  | [x], [x'], _, _ =>
    simp only [rotatePlanePos, sqDist, List.zipWith_cons_cons, List.zipWith_nil_left, List.sum_cons, List.sum_nil, sub_self, abs_zero]
    positivity
  | [x, y], [x', y'], _, _ =>
    have := plane_norm (x - x') (y - y') 0
    simp only [rotatePlanePos, rotateCoords, sqDist, List.zipWith_cons_cons, List.zipWith_nil_left, List.sum_cons, List.sum_nil]
    refine le_trans (le_of_eq ?_) (le_trans this (le_of_eq ?_))
    · congr 1; ring
    · ring
  | [x, y, z], [x', y', z'], _, _ =>
    cases t
    · have := plane_norm (x - x') (y - y') (z - z')
      simp only [rotatePlanePos, rotateCoords, sqDist, List.zipWith_cons_cons, List.zipWith_nil_left, List.sum_cons, List.sum_nil]
      refine le_trans (le_of_eq ?_) (le_trans this (le_of_eq ?_))
      · congr 1; ring
      · ring
    · have := plane_norm (x - x') (z - z') (y - y')
      simp only [rotatePlanePos, rotateCoords, sqDist, List.zipWith_cons_cons, List.zipWith_nil_left, List.sum_cons, List.sum_nil]
      refine le_trans (le_of_eq ?_) (le_trans this (le_of_eq ?_))
      · congr 1; ring
      · ring
  | [x, y, z, w], [x', y', z', w'], _, _ =>
    have hw := sq_nonneg (w - w')
    cases t
    · have := plane_norm (x - x') (y - y') (z - z')
      simp only [rotatePlanePos, rotateCoords, sqDist, List.zipWith_cons_cons, List.zipWith_nil_left, List.sum_cons, List.sum_nil]
      refine le_trans (le_of_eq ?_) (le_trans this ?_)
      · congr 1; ring
      · nlinarith
    · have := plane_norm (x - x') (z - z') (y - y')
      simp only [rotatePlanePos, rotateCoords, sqDist, List.zipWith_cons_cons, List.zipWith_nil_left, List.sum_cons, List.sum_nil]
      refine le_trans (le_of_eq ?_) (le_trans this ?_)
      · congr 1; ring
      · nlinarith

/-- **C32**: a 2D input becomes 3D, in the plane improved for XY whatever the setting; a 4D input keeps its last coordinate. -/
theorem C32_plane_dims (t : Plane) (source : Src) (seed : I32) (x y z w : ℝ) :
    domainRotatePlane t source seed [x, y] = domainRotatePlane .xy source seed [x, y, 0] ∧
    (rotatePlanePos t [x, y, z, w]) = (rotatePlanePos t [x, y, z]) ++ [w] := ⟨rfl, by cases t <;> rfl⟩

/-- **C32**: the improved plane is turned to be (up to rounding) perpendicular to the main diagonal: its normal is mapped to a multiple of (-1, -1, 1),
respectively (-1, 1, -1). -/
theorem C32_plane_normal : rotatePlanePos .xy [0, 0, 1] = [-kThird, -kThird, kThird] ∧ rotatePlanePos .xz [0, 1, 0] = [-kThird, kThird, -kThird] := by
  simp [rotatePlanePos, rotateCoords]

/-! ## C32: the other position modifiers -/

/-- **C32**, DomainScale: every coordinate is multiplied. -/
theorem C32_scale (s : ℝ) (source : Src) (seed : I32) (pos q : Pos) (hl : q.length = pos.length)
    (h : ∀ i (h1 : i < q.length) (h2 : i < pos.length), q[i] = pos[i] * s) : domainScale s source seed pos = source seed q := by
  unfold domainScale
  congr 1
  exact (List.ext_getElem (by simp [hl]) fun i h1 h2 => by rw [h i h1 (by omega)]; simp).symm

/-- **C32**, DomainAxisScale: coordinate `i` is multiplied by scale `i`. -/
theorem C32_axis_scale (s : Nat → ℝ) (source : Src) (seed : I32) (pos q : Pos) (hl : q.length = pos.length)
    (h : ∀ i (h1 : i < q.length) (h2 : i < pos.length), q[i] = pos[i] * s i) : domainAxisScale s source seed pos = source seed q := by
  unfold domainAxisScale
  congr 1
  exact (List.ext_getElem (by simp [hl]) fun i h1 h2 => by rw [h i h1 (by omega)]; simp).symm

/-- **C32**, DomainOffset: to coordinate `i` the value of offset source `i` at the *original* position is added. -/
theorem C32_offset (o : Nat → Src) (source : Src) (seed : I32) (pos q : Pos) (hl : q.length = pos.length)
    (h : ∀ i (h1 : i < q.length) (h2 : i < pos.length), q[i] = pos[i] + o i seed pos) : domainOffset o source seed pos = source seed q := by
  unfold domainOffset
  congr 1
  exact (List.ext_getElem (by simp [hl]) fun i h1 h2 => by rw [h i h1 (by omega)]; simp).symm

/-- **C32**: nested scales multiply, nested constant offsets add, and neither changes anything at its default. -/
theorem C32_compose (s t : ℝ) (a b : Nat → ℝ) (source : Src) (seed : I32) (pos : Pos) :
    domainScale s (domainScale t source) seed pos = domainScale (s * t) source seed pos ∧
    domainScale 1 source seed pos = source seed pos ∧
    domainOffset (fun i => Src.const (a i)) (domainOffset (fun i => Src.const (b i)) source) seed pos =
      domainOffset (fun i => Src.const (a i + b i)) source seed pos ∧
    domainOffset (fun _ => Src.const 0) source seed pos = source seed pos := by
  refine ⟨?_, ?_, ?_, ?_⟩
  · simp only [domainScale, List.map_map]
    congr 1
    refine List.map_congr_left fun p _ => ?_
    simp only [Function.comp]; ring
  · simp [domainScale]
  · simp only [domainOffset, Src.const]
    congr 1
    apply List.ext_getElem
    · simp
    · intro i h1 h2; simp
  · simp only [domainOffset, Src.const, add_zero]
    congr 1
    apply List.ext_getElem
    · simp
    · intro i h1 h2; simp

/-- **C32**, SeedOffset: the source sees seed + offset modulo 2^32; nested offsets add; offset 0 does nothing. -/
theorem C32_seed_offset (a b : I32) (source : Src) (seed : I32) (pos : Pos) :
    seedOffset a source seed pos = source (seed + a) pos ∧ seedOffset a (seedOffset b source) seed pos = seedOffset (a + b) source seed pos ∧
    seedOffset 0 source seed pos = source seed pos :=
  ⟨rfl, by simp only [seedOffset, BitVec.add_assoc], by simp [seedOffset]⟩

/-- **C32**, AddDimension appends a coordinate (in 4D it does nothing) and RemoveDimension of that coordinate takes it away again. -/
theorem C32_add_dimension (n source : Src) (seed : I32) (pos : Pos) :
    (pos.length < 4 → addDimension n source seed pos = source seed (pos ++ [n seed pos])) ∧ (pos.length = 4 → addDimension n source seed pos = source seed pos) := by
  unfold addDimension
  exact ⟨fun h => if_neg (by omega), fun h => if_pos h⟩

/-- **C32**, RemoveDimension: in 3D and 4D exactly the chosen coordinate is dropped, if there is one with that index; in 2D nothing is. -/
theorem C32_remove_dimension (d : Nat) (source : Src) (seed : I32) (pos : Pos) :
    (3 ≤ pos.length → pos.length ≤ 4 → removeDimension d source seed pos = source seed (pos.eraseIdx d)) ∧
    (pos.length = 2 → removeDimension d source seed pos = source seed pos) := by
  constructor
  · intro h3 h4
    match pos, h3, h4 with
    | [x, y, z], _, _ =>
      rcases (by omega : d = 0 ∨ d = 1 ∨ d = 2 ∨ 3 ≤ d) with rfl | rfl | rfl | hd
      · rfl
      · rfl
      · rfl
      · rw [List.eraseIdx_of_length_le (by simpa using hd)]
        simp only [removeDimension]
        rw [if_neg (by omega), if_neg (by omega), if_neg (by omega)]
    | [x, y, z, w], _, _ =>
      rcases (by omega : d = 0 ∨ d = 1 ∨ d = 2 ∨ d = 3 ∨ 4 ≤ d) with rfl | rfl | rfl | rfl | hd
      · rfl
      · rfl
      · rfl
      · rfl
      · rw [List.eraseIdx_of_length_le (by simpa using hd)]
        simp only [removeDimension]
        rw [if_neg (by omega), if_neg (by omega), if_neg (by omega), if_neg (by omega)]
  · intro h2
    obtain ⟨x, y, rfl⟩ := List.length_eq_two.mp h2
    rfl

/-- **C32**: adding a dimension and removing it again is the identity, from 2D and from 3D. -/
theorem C32_add_remove (n source : Src) (seed : I32) (pos : Pos) (h : pos.length = 2 ∨ pos.length = 3) :
    addDimension n (removeDimension pos.length source) seed pos = source seed pos := by
  rw [(C32_add_dimension n _ seed pos).1 (by omega), (C32_remove_dimension _ _ _ _).1 (by simp; omega) (by simp; omega),
    List.eraseIdx_append_of_length_le (le_refl _)]
  simp

end FastNoise.Modifiers
