import Verif.GridLemmas
import Mathlib.Order.Fin.Basic

/-!
# C15, C16, C17, C39: batch generation

Specification first (`BatchResult`, `ExactMinMax`), then the theorems.
-/

namespace FastNoise.Grid

variable {F : Type} [LinearOrder F] [BoundedOrder F]

/-- `m` is the least and the greatest of the listed values. -/
def ExactMinMax (vals : List F) (m : MinMax F) : Prop :=
  (m.min ∈ vals ∧ ∀ v ∈ vals, m.min ≤ v) ∧ (m.max ∈ vals ∧ ∀ v ∈ vals, v ≤ m.max)

/-- A call that was given the array `buf` ended normally with array `out` and result `m`: the first `T` outputs are
`f 0, f 1, …`, nothing else of the array changed, and `m` is their exact minimum and maximum. -/
def BatchResult (r : Except Err (List F × MinMax F)) (buf : List F) (T : Nat) (f : Nat → F) : Prop :=
  ∃ out m, r = .ok (out, m) ∧ out.length = buf.length ∧ (∀ i < T, out[i]? = some (f i)) ∧
    (∀ i, T ≤ i → out[i]? = buf[i]?) ∧ ExactMinMax (out.take T) m

/-- Helper: from the shape proved in `GridLemmas` to `BatchResult`. -/
theorem batchResult_of {r : Except Err (List F × MinMax F)} {buf : List F} {T : Nat} {f : Nat → F} (hT : 0 < T)
    (hlen : T ≤ buf.length) (h : ∃ m, r = .ok ((List.range T).map f ++ buf.drop T, m) ∧ MMInv f T m) :
    BatchResult r buf T f := by
  obtain ⟨m, he, hm⟩ := h
  have htake : ((List.range T).map f ++ buf.drop T).take T = (List.range T).map f := List.take_left' (by simp)
  refine ⟨_, m, he, ?_, ?_, ?_, ?_⟩
  · simp; omega
  · intro i hi
    rw [List.getElem?_append_left (by simpa using hi)]
    simp [hi]
  · intro i hi
    rw [List.getElem?_append_right (by simpa using hi), List.getElem?_drop]
    congr 1; simp; omega
  · rw [htake]
    obtain ⟨⟨j, hj, ej⟩, ⟨j', hj', ej'⟩⟩ := hm.finish hT
    refine ⟨⟨?_, ?_⟩, ⟨?_, ?_⟩⟩
    · rw [ej]; simp only [List.mem_map, List.mem_range]; exact ⟨j, hj, rfl⟩
    · simp only [List.mem_map, List.mem_range]; rintro v ⟨j, hj, rfl⟩; exact hm.lo j hj
    · rw [ej']; simp only [List.mem_map, List.mem_range]; exact ⟨j', hj', rfl⟩
    · simp only [List.mem_map, List.mem_range]; rintro v ⟨j, hj, rfl⟩; exact hm.hi j hj

/-- Helper: products of the counts that fit an `int`. -/
theorem imul_ok {a b : Nat} (h : a * b < 2 ^ 31) : imul (a : Int) (b : Int) = .ok ((a * b : Nat) : Int) := by
  have : ((a * b : Nat) : Int) = (a : Int) * b := by push_cast; rfl
  unfold imul
  rw [← this, if_pos (by omega)]

theorem ok_bind {α β : Type} (a : α) (f : α → Except Err β) : ((Except.ok a : Except Err α) >>= f) = f a := rfl
theorem ok_pure {α : Type} (a : α) : (pure a : Except Err α) = Except.ok a := rfl

section Advance
omit [LinearOrder F] [BoundedOrder F]

/-- Helper: what the lanes in `V` do: lane `i` moves from linear index `J i` to `J i + n i`. -/
def Moves (N : Nat) (init : Bool) (T : Nat) (V : Nat → Prop) (J n : Nat → Nat) : Prop :=
  ∀ i, V i → J i + n i < T ∧ (if init then J i = 0 ∧ n i < N else n i = N)

theorem adv2_spec {N : Nat} {init : Bool} {X T : Nat} (hX : 0 < X) (hX2 : X < 2 ^ 31) (hT : T < 2 ^ 31) {V : Nat → Prop}
    {J n : Nat → Nat} (hV : Moves N init T V J n) {x y : Lanes Int}
    (hx : ∀ i, V i → x i = ((J i % X + n i : Nat) : Int)) (hy : ∀ i, V i → y i = ((J i / X : Nat) : Int)) :
    ∃ l, axisReset N init x y X X = .ok l ∧
      ∀ i, V i → l.1 i = (((J i + n i) % X : Nat) : Int) ∧ l.2 i = (((J i + n i) / X : Nat) : Int) := by
  obtain ⟨a', b', he, h⟩ := axis_step N init x y 1 X T Nat.one_pos hX (by omega) hT V J n (fun i => J i / X)
    (by intro i hi; rw [hx i hi]; simp only [Nat.div_one]; congr 2; omega)
    hy (by intro i _; simp only [Nat.one_mul]; exact le_refl _) hV
  simp only [Nat.one_mul] at he
  refine ⟨(a', b'), he, ?_⟩
  intro i hi
  obtain ⟨h1, h2⟩ := h i hi
  have hm : J i / X ≤ (J i + n i) / X := Nat.div_le_div_right (by omega)
  simp only [Nat.div_one, Nat.one_mul] at h1 h2
  refine ⟨h1, ?_⟩
  show b' i = _
  rw [h2]; congr 1; omega

theorem adv3_spec {N : Nat} {init : Bool} {X Y T : Nat} (hX : 0 < X) (hY : 0 < Y) (hXY : X * Y < 2 ^ 31) (hT : T < 2 ^ 31)
    {V : Nat → Prop} {J n : Nat → Nat} (hV : Moves N init T V J n) {x y z : Lanes Int}
    (hx : ∀ i, V i → x i = ((J i % X + n i : Nat) : Int)) (hy : ∀ i, V i → y i = ((J i / X % Y : Nat) : Int))
    (hz : ∀ i, V i → z i = ((J i / (X * Y) : Nat) : Int)) :
    ∃ l, adv3 N init x y z X Y = .ok l ∧
      ∀ i, V i → l.1 i = (((J i + n i) % X : Nat) : Int) ∧ l.2.1 i = (((J i + n i) / X % Y : Nat) : Int) ∧
        l.2.2 i = (((J i + n i) / (X * Y) : Nat) : Int) := by
  have hXle : X ≤ X * Y := Nat.le_mul_of_pos_right X hY
  obtain ⟨a1, b1, he1, h1⟩ := axis_step N init x y 1 X T Nat.one_pos hX (by omega) hT V J n (fun i => J i / X % Y)
    (by intro i hi; rw [hx i hi]; simp only [Nat.div_one]; congr 2; omega)
    hy (by intro i _; simp only [Nat.one_mul]; exact Nat.mod_le _ _) hV
  obtain ⟨a2, b2, he2, h2⟩ := axis_step N init b1 z X Y T hX hY hXY hT V J n (fun i => J i / (X * Y))
    (by intro i hi; rw [(h1 i hi).2]; simp only [Nat.one_mul])
    hz (by intro i _; exact le_refl _) hV
  simp only [Nat.one_mul] at he1
  refine ⟨(a1, a2, b2), ?_, ?_⟩
  · simp only [adv3, he1, ok_bind, imul_ok hXY, he2, ok_pure]
  · intro i hi
    have hm : J i / (X * Y) ≤ (J i + n i) / (X * Y) := Nat.div_le_div_right (by omega)
    refine ⟨by have := (h1 i hi).1; simpa only [Nat.div_one] using this, (h2 i hi).1, ?_⟩
    show b2 i = _
    rw [(h2 i hi).2]; congr 1; omega

theorem adv4_spec {N : Nat} {init : Bool} {X Y Z T : Nat} (hX : 0 < X) (hY : 0 < Y) (hZ : 0 < Z) (hXYZ : X * Y * Z < 2 ^ 31)
    (hT : T < 2 ^ 31) {V : Nat → Prop} {J n : Nat → Nat} (hV : Moves N init T V J n) {x y z w : Lanes Int}
    (hx : ∀ i, V i → x i = ((J i % X + n i : Nat) : Int)) (hy : ∀ i, V i → y i = ((J i / X % Y : Nat) : Int))
    (hz : ∀ i, V i → z i = ((J i / (X * Y) % Z : Nat) : Int)) (hw : ∀ i, V i → w i = ((J i / (X * Y * Z) : Nat) : Int)) :
    ∃ l, adv4 N init x y z w X Y Z = .ok l ∧
      ∀ i, V i → l.1 i = (((J i + n i) % X : Nat) : Int) ∧ l.2.1 i = (((J i + n i) / X % Y : Nat) : Int) ∧
        l.2.2.1 i = (((J i + n i) / (X * Y) % Z : Nat) : Int) ∧ l.2.2.2 i = (((J i + n i) / (X * Y * Z) : Nat) : Int) := by
  have hXle : X ≤ X * Y := Nat.le_mul_of_pos_right X hY
  have hXYle : X * Y ≤ X * Y * Z := Nat.le_mul_of_pos_right _ hZ
  have hXYp : 0 < X * Y := Nat.mul_pos hX hY
  obtain ⟨a1, b1, he1, h1⟩ := axis_step N init x y 1 X T Nat.one_pos hX (by rw [Nat.one_mul]; exact lt_of_le_of_lt (le_trans hXle hXYle) hXYZ) hT V J n (fun i => J i / X % Y)
    (by intro i hi; rw [hx i hi]; simp only [Nat.div_one]; congr 2; omega)
    hy (by intro i _; simp only [Nat.one_mul]; exact Nat.mod_le _ _) hV
  obtain ⟨a2, b2, he2, h2⟩ := axis_step N init b1 z X Y T hX hY (lt_of_le_of_lt hXYle hXYZ) hT V J n (fun i => J i / (X * Y) % Z)
    (by intro i hi; rw [(h1 i hi).2]; simp only [Nat.one_mul])
    hz (by intro i _; exact Nat.mod_le _ _) hV
  obtain ⟨a3, b3, he3, h3⟩ := axis_step N init b2 w (X * Y) Z T hXYp hZ hXYZ hT V J n (fun i => J i / (X * Y * Z))
    (by intro i hi; rw [(h2 i hi).2])
    hw (by intro i _; exact le_refl _) hV
  simp only [Nat.one_mul] at he1
  refine ⟨(a1, a2, a3, b3), ?_, ?_⟩
  · have i1 := imul_ok (show X * Y < 2 ^ 31 from lt_of_le_of_lt hXYle hXYZ)
    have i2 := imul_ok hXYZ
    clear h1 h2 h3 hx hy hz hw hV hXYZ hXYle hXle hXYp hT
    generalize ((X * Y * Z : Nat) : Int) = c3 at *
    generalize ((X * Y : Nat) : Int) = c2 at *
    unfold adv4
    rw [he1, ok_bind]
    simp only
    rw [i1, ok_bind, he2, ok_bind]
    simp only
    rw [ok_bind, i2, ok_bind, he3]
    rfl
  · intro i hi
    have hm : J i / (X * Y * Z) ≤ (J i + n i) / (X * Y * Z) := Nat.div_le_div_right (by omega)
    refine ⟨by have := (h1 i hi).1; simpa only [Nat.div_one] using this, (h2 i hi).1, (h3 i hi).1, ?_⟩
    show b3 i = _
    rw [(h3 i hi).2, Nat.add_sub_cancel' hm]

/-- Helper: the lanes that belong to outputs, at the start and in a later pass. -/
theorem moves_init {N T : Nat} : Moves N true T (fun i => i < N ∧ 0 + i < T) (fun _ => 0) (fun i => i) := by
  rintro i ⟨h1, h2⟩; exact ⟨h2, by simpa using h1⟩

theorem moves_adv {N T k : Nat} : Moves N false T (fun i => i < N ∧ (k + N) + i < T) (fun i => k + i) (fun _ => N) := by
  rintro i ⟨h1, h2⟩; exact ⟨show k + i + N < T by omega, by simp⟩

theorem iota_eq {T i : Nat} (hT : T < 2 ^ 31) (hi : 0 + i < T) (M : Nat) : iota i = ((0 % M + i : Nat) : Int) := by
  unfold iota; rw [w32_id (by omega) (by omega), Nat.zero_mod]; push_cast; rfl

theorem addN_eq {T k i N X : Nat} (hT : T < 2 ^ 31) (hi : (k + N) + i < T) {x : Lanes Int}
    (hx : x i = (((k + i) % X : Nat) : Int)) : addN N x i = (((k + i) % X + N : Nat) : Int) := by
  have := Nat.mod_le (k + i) X
  unfold addN; rw [w32_id (by omega) (by omega), hx]; push_cast; rfl

end Advance

/-- **C15, C16 (2D)** For every register width and all counts whose product fits an `int`, `GenUniformGrid2D` ends
normally; output `y * xCount + x` is the noise at `(xOffset + x * xStep, yOffset + y * yStep)` (one fused
multiply-add per axis); nothing outside the first `xCount * yCount` elements is touched; min/max are exact. -/
theorem C15_C16_grid2D (N : Nat) (hN : 0 < N) (o : FOps F) (gen : F → F → F) (buf : List F) (xOff yOff : F)
    (X Y : Nat) (hX : 0 < X) (hY : 0 < Y) (hint : X * Y < 2 ^ 31) (hbuf : X * Y ≤ buf.length) (xStep yStep : F) :
    ∃ f, BatchResult (genUniformGrid2D N hN o gen buf xOff yOff X Y xStep yStep) buf (X * Y) f ∧
      ∀ x y, x < X → y < Y →
        f (y * X + x) = gen (o.fma (o.conv x) xStep xOff) (o.fma (o.conv y) yStep yOff) := by
  have hXle : X ≤ X * Y := Nat.le_mul_of_pos_right X hY
  have hT : 0 < X * Y := Nat.mul_pos hX hY
  refine ⟨fun j => gen (o.fma (o.conv ((j % X : Nat) : Int)) xStep xOff) (o.fma (o.conv ((j / X : Nat) : Int)) yStep yOff),
    ?_, ?_⟩
  · refine batchResult_of hT hbuf ?_
    obtain ⟨l0, e0, h0⟩ := adv2_spec (x := iota) (y := fun _ => 0) hX (by omega) hint (moves_init (N := N) (T := X * Y))
      (fun i hi => iota_eq hint hi.2 X) (fun i hi => by simp)
    have := run_spec N hN
      (fun j => gen (o.fma (o.conv ((j % X : Nat) : Int)) xStep xOff) (o.fma (o.conv ((j / X : Nat) : Int)) yStep yOff))
      buf (X * Y) hT hbuf
      (fun l : Lanes Int × Lanes Int => axisReset N false (addN N l.1) l.2 X X)
      (fun l i => gen (o.fma (o.conv (l.1 i)) xStep xOff) (o.fma (o.conv (l.2 i)) yStep yOff))
      (fun l k => ∀ i, i < N ∧ k + i < X * Y → l.1 i = (((k + i) % X : Nat) : Int) ∧ l.2 i = (((k + i) / X : Nat) : Int))
      (by intro l k i hP hi hlt; obtain ⟨h1, h2⟩ := hP i ⟨hi, hlt⟩; simp only [h1, h2])
      (by
        intro l k hP hlt
        obtain ⟨l', e', h'⟩ := adv2_spec (x := addN N l.1) (y := l.2) hX (by omega) hint (moves_adv (N := N) (T := X * Y) (k := k))
          (fun i hi => addN_eq hint hi.2 (hP i ⟨hi.1, by omega⟩).1) (fun i hi => (hP i ⟨hi.1, by omega⟩).2)
        refine ⟨l', e', ?_⟩
        intro i hi
        have := h' i hi
        rwa [show k + i + N = k + N + i by omega] at this)
      l0 (by intro i hi; exact h0 i hi)
    simp only [genUniformGrid2D, imul_ok hint, ok_bind, e0]
    exact this
  · intro x y hx hy
    have e1 : (y * X + x) % X = x := by rw [Nat.mul_comm, Nat.mul_add_mod, Nat.mod_eq_of_lt hx]
    have e2 : (y * X + x) / X = y := by
      rw [Nat.add_comm, Nat.add_mul_div_right _ _ hX, Nat.div_eq_of_lt hx, Nat.zero_add]
    simp only [e1, e2]

/-- Helper: digits of a row-major index. -/
theorem digits2 {X x y : Nat} (hx : x < X) : (y * X + x) % X = x ∧ (y * X + x) / X = y := by
  have hX : 0 < X := by omega
  constructor
  · rw [Nat.mul_comm, Nat.mul_add_mod, Nat.mod_eq_of_lt hx]
  · rw [Nat.add_comm, Nat.add_mul_div_right _ _ hX, Nat.div_eq_of_lt hx, Nat.zero_add]

/-- **C15, C16 (3D)** The same for `GenUniformGrid3D`: output `(z * yCount + y) * xCount + x`. -/
theorem C15_C16_grid3D (N : Nat) (hN : 0 < N) (o : FOps F) (gen : F → F → F → F) (buf : List F) (xOff yOff zOff : F)
    (X Y Z : Nat) (hX : 0 < X) (hY : 0 < Y) (hZ : 0 < Z) (hint : X * Y * Z < 2 ^ 31) (hbuf : X * Y * Z ≤ buf.length)
    (xStep yStep zStep : F) :
    ∃ f, BatchResult (genUniformGrid3D N hN o gen buf xOff yOff zOff X Y Z xStep yStep zStep) buf (X * Y * Z) f ∧
      ∀ x y z, x < X → y < Y → z < Z →
        f ((z * Y + y) * X + x) =
          gen (o.fma (o.conv x) xStep xOff) (o.fma (o.conv y) yStep yOff) (o.fma (o.conv z) zStep zOff) := by
  have hXYle : X * Y ≤ X * Y * Z := Nat.le_mul_of_pos_right _ hZ
  have hXY : X * Y < 2 ^ 31 := lt_of_le_of_lt hXYle hint
  have hXYp : 0 < X * Y := Nat.mul_pos hX hY
  have hT : 0 < X * Y * Z := Nat.mul_pos hXYp hZ
  refine ⟨fun j => gen (o.fma (o.conv ((j % X : Nat) : Int)) xStep xOff) (o.fma (o.conv ((j / X % Y : Nat) : Int)) yStep yOff)
    (o.fma (o.conv ((j / (X * Y) : Nat) : Int)) zStep zOff), ?_, ?_⟩
  · refine batchResult_of hT hbuf ?_
    obtain ⟨l0, e0, h0⟩ := adv3_spec (x := iota) (y := fun _ => 0) (z := fun _ => 0) hX hY hXY hint
      (moves_init (N := N) (T := X * Y * Z))
      (fun i hi => iota_eq hint hi.2 X) (fun i hi => by simp) (fun i hi => by simp)
    have := run_spec N hN
      (fun j => gen (o.fma (o.conv ((j % X : Nat) : Int)) xStep xOff) (o.fma (o.conv ((j / X % Y : Nat) : Int)) yStep yOff)
        (o.fma (o.conv ((j / (X * Y) : Nat) : Int)) zStep zOff))
      buf (X * Y * Z) hT hbuf
      (fun l : Lanes Int × Lanes Int × Lanes Int => adv3 N false (addN N l.1) l.2.1 l.2.2 X Y)
      (fun l i => gen (o.fma (o.conv (l.1 i)) xStep xOff) (o.fma (o.conv (l.2.1 i)) yStep yOff)
        (o.fma (o.conv (l.2.2 i)) zStep zOff))
      (fun l k => ∀ i, i < N ∧ k + i < X * Y * Z → l.1 i = (((k + i) % X : Nat) : Int) ∧
        l.2.1 i = (((k + i) / X % Y : Nat) : Int) ∧ l.2.2 i = (((k + i) / (X * Y) : Nat) : Int))
      (by intro l k i hP hi hlt; obtain ⟨h1, h2, h3⟩ := hP i ⟨hi, hlt⟩; simp only [h1, h2, h3])
      (by
        intro l k hP hlt
        have hlow : ∀ i, i < N ∧ k + N + i < X * Y * Z → i < N ∧ k + i < X * Y * Z := fun i hi => ⟨hi.1, by omega⟩
        obtain ⟨l', e', h'⟩ := adv3_spec (x := addN N l.1) (y := l.2.1) (z := l.2.2) hX hY hXY hint
          (moves_adv (N := N) (T := X * Y * Z) (k := k))
          (fun i hi => addN_eq hint hi.2 (hP i (hlow i hi)).1) (fun i hi => (hP i (hlow i hi)).2.1)
          (fun i hi => (hP i (hlow i hi)).2.2)
        refine ⟨l', e', ?_⟩
        intro i hi
        have := h' i hi
        rwa [show k + i + N = k + N + i by omega] at this)
      l0 (by intro i hi; exact h0 i hi)
    have i1 := imul_ok hXY
    have i2 := imul_ok hint
    unfold genUniformGrid3D
    rw [i1, ok_bind, i2, ok_bind, e0, ok_bind]
    exact this
  · intro x y z hx hy hz
    obtain ⟨e1, e2⟩ := digits2 (X := X) (x := x) (y := z * Y + y) hx
    obtain ⟨e3, e4⟩ := digits2 (X := Y) (x := y) (y := z) hy
    simp only [e1, ← Nat.div_div_eq_div_mul, e2, e3, e4]

/-- **C15, C16 (4D)** The same for `GenUniformGrid4D`: output `((w * zCount + z) * yCount + y) * xCount + x`. -/
theorem C15_C16_grid4D (N : Nat) (hN : 0 < N) (o : FOps F) (gen : F → F → F → F → F) (buf : List F) (xOff yOff zOff wOff : F)
    (X Y Z W : Nat) (hX : 0 < X) (hY : 0 < Y) (hZ : 0 < Z) (hW : 0 < W) (hint : X * Y * Z * W < 2 ^ 31)
    (hbuf : X * Y * Z * W ≤ buf.length) (xStep yStep zStep wStep : F) :
    ∃ f, BatchResult (genUniformGrid4D N hN o gen buf xOff yOff zOff wOff X Y Z W xStep yStep zStep wStep) buf
        (X * Y * Z * W) f ∧
      ∀ x y z w, x < X → y < Y → z < Z → w < W →
        f (((w * Z + z) * Y + y) * X + x) =
          gen (o.fma (o.conv x) xStep xOff) (o.fma (o.conv y) yStep yOff) (o.fma (o.conv z) zStep zOff)
            (o.fma (o.conv w) wStep wOff) := by
  have hXYle : X * Y ≤ X * Y * Z := Nat.le_mul_of_pos_right _ hZ
  have hXYZle : X * Y * Z ≤ X * Y * Z * W := Nat.le_mul_of_pos_right _ hW
  have hXYZ : X * Y * Z < 2 ^ 31 := lt_of_le_of_lt hXYZle hint
  have hXY : X * Y < 2 ^ 31 := lt_of_le_of_lt hXYle hXYZ
  have hXYp : 0 < X * Y := Nat.mul_pos hX hY
  have hXYZp : 0 < X * Y * Z := Nat.mul_pos hXYp hZ
  have hT : 0 < X * Y * Z * W := Nat.mul_pos hXYZp hW
  refine ⟨fun j => gen (o.fma (o.conv ((j % X : Nat) : Int)) xStep xOff) (o.fma (o.conv ((j / X % Y : Nat) : Int)) yStep yOff)
    (o.fma (o.conv ((j / (X * Y) % Z : Nat) : Int)) zStep zOff)
    (o.fma (o.conv ((j / (X * Y * Z) : Nat) : Int)) wStep wOff), ?_, ?_⟩
  · refine batchResult_of hT hbuf ?_
    obtain ⟨l0, e0, h0⟩ := adv4_spec (x := iota) (y := fun _ => 0) (z := fun _ => 0) (w := fun _ => 0) hX hY hZ hXYZ hint
      (moves_init (N := N) (T := X * Y * Z * W))
      (fun i hi => iota_eq hint hi.2 X) (fun i hi => by simp) (fun i hi => by simp) (fun i hi => by simp)
    have := run_spec N hN
      (fun j => gen (o.fma (o.conv ((j % X : Nat) : Int)) xStep xOff) (o.fma (o.conv ((j / X % Y : Nat) : Int)) yStep yOff)
        (o.fma (o.conv ((j / (X * Y) % Z : Nat) : Int)) zStep zOff)
        (o.fma (o.conv ((j / (X * Y * Z) : Nat) : Int)) wStep wOff))
      buf (X * Y * Z * W) hT hbuf
      (fun l : Lanes Int × Lanes Int × Lanes Int × Lanes Int => adv4 N false (addN N l.1) l.2.1 l.2.2.1 l.2.2.2 X Y Z)
      (fun l i => gen (o.fma (o.conv (l.1 i)) xStep xOff) (o.fma (o.conv (l.2.1 i)) yStep yOff)
        (o.fma (o.conv (l.2.2.1 i)) zStep zOff) (o.fma (o.conv (l.2.2.2 i)) wStep wOff))
      (fun l k => ∀ i, i < N ∧ k + i < X * Y * Z * W → l.1 i = (((k + i) % X : Nat) : Int) ∧
        l.2.1 i = (((k + i) / X % Y : Nat) : Int) ∧ l.2.2.1 i = (((k + i) / (X * Y) % Z : Nat) : Int) ∧
        l.2.2.2 i = (((k + i) / (X * Y * Z) : Nat) : Int))
      (by intro l k i hP hi hlt; obtain ⟨h1, h2, h3, h4⟩ := hP i ⟨hi, hlt⟩; simp only [h1, h2, h3, h4])
      (by
        intro l k hP hlt
        have hlow : ∀ i, i < N ∧ k + N + i < X * Y * Z * W → i < N ∧ k + i < X * Y * Z * W := fun i hi => ⟨hi.1, by omega⟩
        obtain ⟨l', e', h'⟩ := adv4_spec (x := addN N l.1) (y := l.2.1) (z := l.2.2.1) (w := l.2.2.2) hX hY hZ hXYZ hint
          (moves_adv (N := N) (T := X * Y * Z * W) (k := k))
          (fun i hi => addN_eq hint hi.2 (hP i (hlow i hi)).1) (fun i hi => (hP i (hlow i hi)).2.1)
          (fun i hi => (hP i (hlow i hi)).2.2.1) (fun i hi => (hP i (hlow i hi)).2.2.2)
        refine ⟨l', e', ?_⟩
        intro i hi
        have := h' i hi
        rwa [show k + i + N = k + N + i by omega] at this)
      l0 (by intro i hi; exact h0 i hi)
    have i1 := imul_ok hXY
    have i2 := imul_ok hXYZ
    have i3 := imul_ok hint
    unfold genUniformGrid4D
    rw [i1, ok_bind, i2, ok_bind, i3, ok_bind, e0, ok_bind]
    exact this
  · intro x y z w hx hy hz hw
    obtain ⟨e1, e2⟩ := digits2 (X := X) (x := x) (y := (w * Z + z) * Y + y) hx
    obtain ⟨e3, e4⟩ := digits2 (X := Y) (x := y) (y := w * Z + z) hy
    obtain ⟨e5, e6⟩ := digits2 (X := Z) (x := z) (y := w) hz
    simp only [e1, ← Nat.div_div_eq_div_mul, e2, e3, e4, e5, e6]

/-- **C18 (sample positions)** `GenTileable2D`: output `y * xSize + x` is the 4D noise at the point whose first and third
coordinates are the cosine and sine of the x angle times the x radius, and second and fourth the same for y. -/
theorem C18_positions (N : Nat) (hN : 0 < N) (o : FOps F) (gen : F → F → F → F → F) (buf : List F)
    (X Y : Nat) (hX : 0 < X) (hY : 0 < Y) (hint : X * Y < 2 ^ 31) (hbuf : X * Y ≤ buf.length) (cx cy : TileConst F) :
    ∃ f, BatchResult (genTileable2D N hN o gen buf X Y cx cy) buf (X * Y) f ∧
      ∀ x y, x < X → y < Y →
        f (y * X + x) = gen (o.mul (o.cos (o.mul (o.conv x) cx.mul)) cx.freq) (o.mul (o.cos (o.mul (o.conv y) cy.mul)) cy.freq)
          (o.mul (o.sin (o.mul (o.conv x) cx.mul)) cx.freq) (o.mul (o.sin (o.mul (o.conv y) cy.mul)) cy.freq) := by
  have hXle : X ≤ X * Y := Nat.le_mul_of_pos_right X hY
  have hT : 0 < X * Y := Nat.mul_pos hX hY
  refine ⟨fun j => gen (o.mul (o.cos (o.mul (o.conv ((j % X : Nat) : Int)) cx.mul)) cx.freq)
    (o.mul (o.cos (o.mul (o.conv ((j / X : Nat) : Int)) cy.mul)) cy.freq)
    (o.mul (o.sin (o.mul (o.conv ((j % X : Nat) : Int)) cx.mul)) cx.freq)
    (o.mul (o.sin (o.mul (o.conv ((j / X : Nat) : Int)) cy.mul)) cy.freq), ?_, ?_⟩
  · refine batchResult_of hT hbuf ?_
    obtain ⟨l0, e0, h0⟩ := adv2_spec (x := iota) (y := fun _ => 0) hX (by omega) hint (moves_init (N := N) (T := X * Y))
      (fun i hi => iota_eq hint hi.2 X) (fun i hi => by simp)
    have := run_spec N hN
      (fun j => gen (o.mul (o.cos (o.mul (o.conv ((j % X : Nat) : Int)) cx.mul)) cx.freq)
        (o.mul (o.cos (o.mul (o.conv ((j / X : Nat) : Int)) cy.mul)) cy.freq)
        (o.mul (o.sin (o.mul (o.conv ((j % X : Nat) : Int)) cx.mul)) cx.freq)
        (o.mul (o.sin (o.mul (o.conv ((j / X : Nat) : Int)) cy.mul)) cy.freq))
      buf (X * Y) hT hbuf
      (fun l : Lanes Int × Lanes Int => axisReset N false (addN N l.1) l.2 X X)
      (fun l i =>
        gen (o.mul (o.cos (o.mul (o.conv (l.1 i)) cx.mul)) cx.freq) (o.mul (o.cos (o.mul (o.conv (l.2 i)) cy.mul)) cy.freq)
          (o.mul (o.sin (o.mul (o.conv (l.1 i)) cx.mul)) cx.freq) (o.mul (o.sin (o.mul (o.conv (l.2 i)) cy.mul)) cy.freq))
      (fun l k => ∀ i, i < N ∧ k + i < X * Y → l.1 i = (((k + i) % X : Nat) : Int) ∧ l.2 i = (((k + i) / X : Nat) : Int))
      (by intro l k i hP hi hlt; obtain ⟨h1, h2⟩ := hP i ⟨hi, hlt⟩; simp only [h1, h2])
      (by
        intro l k hP hlt
        obtain ⟨l', e', h'⟩ := adv2_spec (x := addN N l.1) (y := l.2) hX (by omega) hint (moves_adv (N := N) (T := X * Y) (k := k))
          (fun i hi => addN_eq hint hi.2 (hP i ⟨hi.1, by omega⟩).1) (fun i hi => (hP i ⟨hi.1, by omega⟩).2)
        refine ⟨l', e', ?_⟩
        intro i hi
        have := h' i hi
        rwa [show k + i + N = k + N + i by omega] at this)
      l0 (by intro i hi; exact h0 i hi)
    simp only [genTileable2D, imul_ok hint, ok_bind, e0]
    exact this
  · intro x y hx hy
    obtain ⟨e1, e2⟩ := digits2 (X := X) (x := x) (y := y) hx
    simp only [e1, e2]

omit [LinearOrder F] [BoundedOrder F] in
/-- Helper: loading all position arrays succeeds when each single load does. -/
theorem loadAll_ok (ld : List F → Except Err (Lanes F)) : ∀ (as : List (List F)) (g : List F → Lanes F),
    (∀ a ∈ as, ld a = .ok (g a)) → loadAll ld as = .ok (as.map g)
  | [], _, _ => rfl
  | a :: as, g, h => by
    have h1 := h a List.mem_cons_self
    have h2 := loadAll_ok ld as g (fun b hb => h b (List.mem_cons_of_mem _ hb))
    simp only [loadAll, h1, h2, ok_bind, ok_pure, List.map_cons]

/-- **C17** `GenPositionArray2D/3D/4D` (any number of axes): for every register width, every count from 1 and position
arrays of at least that length, output `i` is the noise at `offset + pos[i]` on every axis; nothing else is written; no
position beyond the first `count` is read (the arrays may be exactly that long) or influences an output (the register
contents `junk` of unused lanes are arbitrary); min/max are exact. -/
theorem C17_positions (N : Nat) (hN : 0 < N) (o : FOps F) (junk : Lanes F) (gen : List F → F) (buf : List F) (n : Nat)
    (hn : 0 < n) (hbuf : n ≤ buf.length) (arrs : List (F × List F)) (harr : ∀ a ∈ arrs, n ≤ a.2.length) :
    ∃ f, BatchResult (genPositionArray N hN o junk gen buf n arrs) buf n f ∧
      ∀ i < n, f i = gen (arrs.map fun a => o.add a.1 (a.2[i]?.getD ⊤)) := by
  refine ⟨fun i => gen (arrs.map fun a => o.add a.1 (a.2[i]?.getD ⊤)), ?_, fun i _ => rfl⟩
  refine batchResult_of hn hbuf ?_
  have harr' : ∀ a ∈ arrs.map (·.2), n ≤ a.length := by
    intro a ha; obtain ⟨b, hb, rfl⟩ := List.mem_map.mp ha; exact harr b hb
  have zip : ∀ (g : List F → Lanes F) (i j : Nat), (∀ a ∈ arrs.map (·.2), g a i = a[j]?.getD ⊤) →
      List.zipWith (fun (a : F × List F) (v : Lanes F) => o.add a.1 (v i)) arrs ((arrs.map (·.2)).map g) =
        arrs.map fun a => o.add a.1 (a.2[j]?.getD ⊤) := by
    intro g i j h
    rw [List.map_map, List.zipWith_map_right]
    clear harr' harr
    induction arrs with
    | nil => rfl
    | cons a as ih =>
      rw [List.zipWith_cons_cons, List.map_cons, ih (fun b hb => h b (List.mem_cons_of_mem _ hb))]
      have := h a.2 List.mem_cons_self
      simp only [Function.comp, this]
  obtain ⟨s, k, he, hi, hk, hkN, -, hk0, hb, hm⟩ := mainLoop_spec N hN
    (fun i => gen (arrs.map fun a => o.add a.1 (a.2[i]?.getD ⊤))) buf n hbuf (fun l : Unit => .ok l)
    (fun _ index => do pure ((fun (vs : List (Lanes F)) (i : Nat) =>
      gen (List.zipWith (fun a v => o.add a.1 (v i)) arrs vs)) (← loadAll (fun a => loadN N a index) (arrs.map (·.2)))))
    (fun _ _ => True)
    (by
      intro l k _ hc
      have := loadAll_ok (fun a => loadN N a (k : Int)) (arrs.map (·.2)) (fun a i => a[k + i]?.getD ⊤)
        (by
          intro a ha
          have := harr' a ha
          unfold loadN
          rw [if_pos (by omega), Int.toNat_natCast])
      refine ⟨_, by rw [this, ok_bind, ok_pure], ?_⟩
      intro i hi
      simp only
      rw [zip _ i (k + i) (fun a _ => rfl)])
    (fun l k _ _ => ⟨l, rfl, trivial⟩) n (start () buf) 0 (by omega) rfl hn trivial (Or.inl rfl) (by simp [start])
    (LaneInv.init _ N)
  -- the final register
  obtain ⟨g, hg, hg0, hgN⟩ : ∃ g : List F → Lanes F,
      (∀ a ∈ arrs.map (·.2), loadRemaining N junk a n s.index = .ok (g a)) ∧
      (k = 0 → ∀ a ∈ arrs.map (·.2), ∀ i, i < n → g a i = a[i]?.getD ⊤) ∧
      (k ≠ 0 → ∀ a ∈ arrs.map (·.2), ∀ i, g a i = a[n - N + i]?.getD ⊤) := by
    by_cases h0 : k = 0
    · refine ⟨fun a i => if (i : Int) < (n : Int) - s.index then a[i]?.getD ⊤ else junk i, ?_, ?_, ?_⟩
      · intro a ha
        have := harr' a ha
        unfold loadRemaining
        rw [if_pos (by omega), if_neg (by omega)]
      · intro _ a _ i hin
        simp only
        rw [if_pos (by omega)]
      · intro h; exact absurd h0 h
    · refine ⟨fun a i => a[n - N + i]?.getD ⊤, ?_, ?_, ?_⟩
      · intro a ha
        have := harr' a ha
        unfold loadRemaining loadN
        rw [if_neg (by omega), if_pos (by omega)]
        have : ((n : Int) - N).toNat = n - N := by omega
        rw [this]
      · intro h; exact absurd h h0
      · intro _ a _ i; rfl
  have hla := loadAll_ok (fun a => loadRemaining N junk a n s.index) (arrs.map (·.2)) g hg
  obtain ⟨m, hr, hmm⟩ := storeRemaining_spec (fun i => gen (arrs.map fun a => o.add a.1 (a.2[i]?.getD ⊤))) buf N k n true
    s.mn s.mx (fun i => gen (List.zipWith (fun a v => o.add a.1 (v i)) arrs ((arrs.map (·.2)).map g))) hm hk hkN hbuf
    (by
      intro h0 i hlt
      have h0 := h0 rfl
      subst h0
      rw [Nat.zero_add] at hlt ⊢
      rw [zip g i i (fun a ha => hg0 rfl a ha i hlt)])
    (by
      intro _ h0
      refine ⟨by omega, ?_⟩
      intro i hi
      rw [zip g i (n - N + i) (fun a ha => hgN h0 a ha i)])
  refine ⟨m, ?_, hmm⟩
  unfold genPositionArray
  simp only at he ⊢
  rw [he, ok_bind, hla, ok_bind, hb, hi, hr]

/-- `GenSingle` agrees with a 1x1 grid whose offset is the position and whose converted index 0 contributes nothing. -/
theorem C15_single2D (o : FOps F) (gen : F → F → F) (x y s t : F) (h : ∀ a b, o.fma (o.conv 0) a b = b)
    (N : Nat) (hN : 0 < N) (b : F) :
    ∃ m, genUniformGrid2D N hN o gen [b] x y 1 1 s t = .ok ([genSingle2D gen x y], m) := by
  obtain ⟨f, ⟨out, m, h1, h2, h3, -⟩, hf⟩ := C15_C16_grid2D N hN o gen [b] x y 1 1 (by omega) (by omega) (by omega) (by simp) s t
  refine ⟨m, ?_⟩
  have e := hf 0 0 (by omega) (by omega)
  have e2 := h3 0 (by omega)
  have : out = [genSingle2D gen x y] := by
    match out, h2, e2 with
    | [v], _, e2 =>
      simp only [List.getElem?_cons_zero, Option.some.injEq] at e2
      rw [e2]
      simp only [Nat.zero_mul, Nat.zero_add] at e
      rw [e]
      simp only [Nat.cast_zero, h, genSingle2D]
  rw [← this]; exact h1

/-- 3D `GenSingle` agrees with a 1x1x1 grid. -/
theorem C15_single3D (o : FOps F) (gen : F → F → F → F) (x y z s t u : F) (h : ∀ a b, o.fma (o.conv 0) a b = b)
    (N : Nat) (hN : 0 < N) (b : F) :
    ∃ m, genUniformGrid3D N hN o gen [b] x y z 1 1 1 s t u = .ok ([genSingle3D gen x y z], m) := by
  obtain ⟨f, ⟨out, m, h1, h2, h3, -⟩, hf⟩ := C15_C16_grid3D N hN o gen [b] x y z 1 1 1 (by omega) (by omega) (by omega) (by omega) (by simp) s t u
  refine ⟨m, ?_⟩
  have e := hf 0 0 0 (by omega) (by omega) (by omega)
  have e2 := h3 0 (by omega)
  have : out = [genSingle3D gen x y z] := by
    match out, h2, e2 with
    | [v], _, e2 =>
      simp only [List.getElem?_cons_zero, Option.some.injEq] at e2
      rw [e2]
      simp only [Nat.zero_mul, Nat.zero_add] at e
      rw [e]
      simp only [Nat.cast_zero, h, genSingle3D]
  rw [← this]; exact h1

/-- 4D `GenSingle` agrees with a 1x1x1x1 grid. -/
theorem C15_single4D (o : FOps F) (gen : F → F → F → F → F) (x y z w s t u v : F) (h : ∀ a b, o.fma (o.conv 0) a b = b)
    (N : Nat) (hN : 0 < N) (b : F) :
    ∃ m, genUniformGrid4D N hN o gen [b] x y z w 1 1 1 1 s t u v = .ok ([genSingle4D gen x y z w], m) := by
  obtain ⟨f, ⟨out, m, h1, h2, h3, -⟩, hf⟩ := C15_C16_grid4D N hN o gen [b] x y z w 1 1 1 1 (by omega) (by omega) (by omega) (by omega) (by omega) (by simp) s t u v
  refine ⟨m, ?_⟩
  have e := hf 0 0 0 0 (by omega) (by omega) (by omega) (by omega)
  have e2 := h3 0 (by omega)
  have : out = [genSingle4D gen x y z w] := by
    match out, h2, e2 with
    | [v], _, e2 =>
      simp only [List.getElem?_cons_zero, Option.some.injEq] at e2
      rw [e2]
      simp only [Nat.zero_mul, Nat.zero_add] at e
      rw [e]
      simp only [Nat.cast_zero, h, genSingle4D]
  rw [← this]; exact h1

/-! ### Independence of the register width -/

omit [BoundedOrder F] in
/-- Helper: two calls with the same specification have the same result. -/
theorem BatchResult.unique {r r' : Except Err (List F × MinMax F)} {buf : List F} {T : Nat} {f f' : Nat → F}
    (h : BatchResult r buf T f) (h' : BatchResult r' buf T f') (e : ∀ i < T, f i = f' i) : r = r' := by
  obtain ⟨out, m, hr, -, h2, h3, ⟨h4, h5⟩, h6, h7⟩ := h
  obtain ⟨out', m', hr', -, h2', h3', ⟨h4', h5'⟩, h6', h7'⟩ := h'
  have hout : out = out' := by
    apply List.ext_getElem?
    intro i
    by_cases hi : i < T
    · rw [h2 i hi, h2' i hi, e i hi]
    · rw [h3 i (by omega), h3' i (by omega)]
  subst hout
  have hm : m = m' := by
    cases m; cases m'
    congr 1
    · exact le_antisymm (h5 _ h4') (h5' _ h4)
    · exact le_antisymm (h7' _ h6) (h7 _ h6')
  rw [hr, hr', hm]

/-- **C15** All register widths (SIMD levels) give the same 2D grid and the same min/max. -/
theorem C15_width_independent2D (N N' : Nat) (hN : 0 < N) (hN' : 0 < N') (o : FOps F) (gen : F → F → F) (buf : List F)
    (xOff yOff : F) (X Y : Nat) (hX : 0 < X) (hY : 0 < Y) (hint : X * Y < 2 ^ 31) (hbuf : X * Y ≤ buf.length) (xStep yStep : F) :
    genUniformGrid2D N hN o gen buf xOff yOff X Y xStep yStep = genUniformGrid2D N' hN' o gen buf xOff yOff X Y xStep yStep := by
  obtain ⟨f, h, e⟩ := C15_C16_grid2D N hN o gen buf xOff yOff X Y hX hY hint hbuf xStep yStep
  obtain ⟨f', h', e'⟩ := C15_C16_grid2D N' hN' o gen buf xOff yOff X Y hX hY hint hbuf xStep yStep
  refine h.unique h' (fun i hi => ?_)
  have hx := Nat.mod_lt i hX
  have hy : i / X < Y := Nat.div_lt_of_lt_mul hi
  have hi' : i / X * X + i % X = i := by rw [Nat.mul_comm]; exact Nat.div_add_mod i X
  have a := e _ _ hx hy
  have b := e' _ _ hx hy
  rw [hi'] at a b
  rw [a, b]

/-- **C15** The same in 3D. -/
theorem C15_width_independent3D (N N' : Nat) (hN : 0 < N) (hN' : 0 < N') (o : FOps F) (gen : F → F → F → F) (buf : List F)
    (xOff yOff zOff : F) (X Y Z : Nat) (hX : 0 < X) (hY : 0 < Y) (hZ : 0 < Z) (hint : X * Y * Z < 2 ^ 31)
    (hbuf : X * Y * Z ≤ buf.length) (xStep yStep zStep : F) :
    genUniformGrid3D N hN o gen buf xOff yOff zOff X Y Z xStep yStep zStep =
      genUniformGrid3D N' hN' o gen buf xOff yOff zOff X Y Z xStep yStep zStep := by
  obtain ⟨f, h, e⟩ := C15_C16_grid3D N hN o gen buf xOff yOff zOff X Y Z hX hY hZ hint hbuf xStep yStep zStep
  obtain ⟨f', h', e'⟩ := C15_C16_grid3D N' hN' o gen buf xOff yOff zOff X Y Z hX hY hZ hint hbuf xStep yStep zStep
  refine h.unique h' (fun i hi => ?_)
  have hx := Nat.mod_lt i hX
  have hy := Nat.mod_lt (i / X) hY
  have hz : i / X / Y < Z := by rw [Nat.div_div_eq_div_mul]; exact Nat.div_lt_of_lt_mul hi
  have hi' : (i / X / Y * Y + i / X % Y) * X + i % X = i := by
    rw [Nat.mul_comm (i / X / Y), Nat.div_add_mod, Nat.mul_comm, Nat.div_add_mod]
  have a := e _ _ _ hx hy hz
  have b := e' _ _ _ hx hy hz
  rw [hi'] at a b
  rw [a, b]

/-- **C15** The same in 4D. -/
theorem C15_width_independent4D (N N' : Nat) (hN : 0 < N) (hN' : 0 < N') (o : FOps F) (gen : F → F → F → F → F) (buf : List F)
    (xOff yOff zOff wOff : F) (X Y Z W : Nat) (hX : 0 < X) (hY : 0 < Y) (hZ : 0 < Z) (hW : 0 < W)
    (hint : X * Y * Z * W < 2 ^ 31) (hbuf : X * Y * Z * W ≤ buf.length) (xStep yStep zStep wStep : F) :
    genUniformGrid4D N hN o gen buf xOff yOff zOff wOff X Y Z W xStep yStep zStep wStep =
      genUniformGrid4D N' hN' o gen buf xOff yOff zOff wOff X Y Z W xStep yStep zStep wStep := by
  obtain ⟨f, h, e⟩ := C15_C16_grid4D N hN o gen buf xOff yOff zOff wOff X Y Z W hX hY hZ hW hint hbuf xStep yStep zStep wStep
  obtain ⟨f', h', e'⟩ := C15_C16_grid4D N' hN' o gen buf xOff yOff zOff wOff X Y Z W hX hY hZ hW hint hbuf xStep yStep zStep wStep
  refine h.unique h' (fun i hi => ?_)
  have hx := Nat.mod_lt i hX
  have hy := Nat.mod_lt (i / X) hY
  have hz := Nat.mod_lt (i / X / Y) hZ
  have hw : i / X / Y / Z < W := by
    rw [Nat.div_div_eq_div_mul, Nat.div_div_eq_div_mul, ← Nat.mul_assoc]
    exact Nat.div_lt_of_lt_mul hi
  have hi' : ((i / X / Y / Z * Z + i / X / Y % Z) * Y + i / X % Y) * X + i % X = i := by
    rw [Nat.mul_comm (i / X / Y / Z), Nat.div_add_mod, Nat.mul_comm (i / X / Y), Nat.div_add_mod, Nat.mul_comm, Nat.div_add_mod]
  have a := e _ _ _ _ hx hy hz hw
  have b := e' _ _ _ _ hx hy hz hw
  rw [hi'] at a b
  rw [a, b]

/-- **C17** All register widths, and all contents of the unused lanes, give the same result. -/
theorem C17_width_independent (N N' : Nat) (hN : 0 < N) (hN' : 0 < N') (o : FOps F) (junk junk' : Lanes F) (gen : List F → F)
    (buf : List F) (n : Nat) (hn : 0 < n) (hbuf : n ≤ buf.length) (arrs : List (F × List F)) (harr : ∀ a ∈ arrs, n ≤ a.2.length) :
    genPositionArray N hN o junk gen buf n arrs = genPositionArray N' hN' o junk' gen buf n arrs := by
  obtain ⟨f, h, e⟩ := C17_positions N hN o junk gen buf n hn hbuf arrs harr
  obtain ⟨f', h', e'⟩ := C17_positions N' hN' o junk' gen buf n hn hbuf arrs harr
  exact h.unique h' (fun i hi => by rw [e i hi, e' i hi])

/-! ### C39 min/max merging -/

/-- A way of combining chunks of values: leaves are accumulated value by value, inner nodes are merged. -/
inductive MergeTree (F : Type)
  | chunk (vals : List F)
  | merge (l r : MergeTree F)

/-- The values below a merge tree. -/
def MergeTree.values : MergeTree F → List F
  | .chunk vs => vs
  | .merge l r => l.values ++ r.values

/-- Evaluate with the `OutputMinMax` operators. -/
def MergeTree.eval : MergeTree F → MinMax F
  | .chunk vs => vs.foldl MinMax.addValue MinMax.init
  | .merge l r => l.eval.merge r.eval

/-- **C39** Merging is associative, commutative, idempotent, and the default value is neutral. -/
theorem C39_semilattice (a b c : MinMax F) :
    (a.merge b).merge c = a.merge (b.merge c) ∧ a.merge b = b.merge a ∧ a.merge a = a ∧
      MinMax.init.merge a = a ∧ a.merge MinMax.init = a := by
  cases a with | mk a a' => cases b with | mk b b' => cases c with | mk c c' =>
  refine ⟨?_, ?_, ?_, ?_, ?_⟩
  · simp only [MinMax.merge, min_assoc, max_assoc]
  · simp only [MinMax.merge, min_comm a b, max_comm a' b']
  · simp [MinMax.merge]
  · simp [MinMax.merge, MinMax.init]
  · simp [MinMax.merge, MinMax.init]

theorem foldl_addValue (vs : List F) (m : MinMax F) :
    vs.foldl MinMax.addValue m = m.merge (vs.foldl MinMax.addValue MinMax.init) := by
  induction vs generalizing m with
  | nil => exact ((C39_semilattice m m m).2.2.2.2).symm
  | cons v vs ih =>
    rw [List.foldl_cons, List.foldl_cons, ih (m.addValue v), ih (MinMax.init.addValue v), ← (C39_semilattice _ _ _).1]
    congr 1
    simp [MinMax.addValue, MinMax.merge, MinMax.init]

/-- **C39** Any grouping of the values gives the same result as accumulating them one by one. -/
theorem C39_grouping (t : MergeTree F) : t.eval = t.values.foldl MinMax.addValue MinMax.init := by
  induction t with
  | chunk vs => rfl
  | merge l r ihl ihr =>
    show l.eval.merge r.eval = (l.values ++ r.values).foldl MinMax.addValue MinMax.init
    rw [List.foldl_append, foldl_addValue r.values, ← ihl, ← ihr]

/-- **C39** The result is the exact minimum and maximum of all values, if there are any. -/
theorem C39_exact (t : MergeTree F) (h : t.values ≠ []) : ExactMinMax t.values t.eval := by
  rw [C39_grouping]
  generalize t.values = vs at h
  have key : ∀ (vs : List F) (m : MinMax F),
      ((vs.foldl MinMax.addValue m).min ≤ m.min ∧ ∀ v ∈ vs, (vs.foldl MinMax.addValue m).min ≤ v) ∧
      (m.max ≤ (vs.foldl MinMax.addValue m).max ∧ ∀ v ∈ vs, v ≤ (vs.foldl MinMax.addValue m).max) ∧
      ((vs.foldl MinMax.addValue m).min = m.min ∨ (vs.foldl MinMax.addValue m).min ∈ vs) ∧
      ((vs.foldl MinMax.addValue m).max = m.max ∨ (vs.foldl MinMax.addValue m).max ∈ vs) := by
    intro vs
    induction vs with
    | nil => intro m; simp
    | cons v vs ih =>
      intro m
      obtain ⟨⟨h1, h2⟩, ⟨h3, h4⟩, h5, h6⟩ := ih (m.addValue v)
      have a1 : (m.addValue v).min = min m.min v := rfl
      have a2 : (m.addValue v).max = max m.max v := rfl
      rw [List.foldl_cons]
      refine ⟨⟨le_trans h1 (min_le_left _ _), ?_⟩, ⟨le_trans (le_max_left _ _) h3, ?_⟩, ?_, ?_⟩
      · intro u hu
        rcases List.mem_cons.mp hu with rfl | hu
        · exact le_trans h1 (min_le_right _ _)
        · exact h2 u hu
      · intro u hu
        rcases List.mem_cons.mp hu with rfl | hu
        · exact le_trans (le_max_right _ _) h3
        · exact h4 u hu
      · rcases h5 with h5 | h5
        · rcases min_choice m.min v with e | e
          · left; rw [h5, a1, e]
          · right; rw [h5, a1, e]; exact List.mem_cons_self
        · right; exact List.mem_cons_of_mem _ h5
      · rcases h6 with h6 | h6
        · rcases max_choice m.max v with e | e
          · left; rw [h6, a2, e]
          · right; rw [h6, a2, e]; exact List.mem_cons_self
        · right; exact List.mem_cons_of_mem _ h6
  obtain ⟨⟨-, h2⟩, ⟨-, h4⟩, h5, h6⟩ := key vs MinMax.init
  obtain ⟨v, hv⟩ := List.exists_mem_of_ne_nil vs h
  refine ⟨⟨?_, h2⟩, ⟨?_, h4⟩⟩
  · rcases h5 with h5 | h5
    · have : (vs.foldl MinMax.addValue MinMax.init).min = v :=
        le_antisymm (h2 v hv) (by rw [h5]; exact le_top)
      rw [this]; exact hv
    · exact h5
  · rcases h6 with h6 | h6
    · have : (vs.foldl MinMax.addValue MinMax.init).max = v :=
        le_antisymm (by rw [h6]; exact bot_le) (h4 v hv)
      rw [this]; exact hv
    · exact h6

/-- Non-vacuity: a merge of two chunks. -/
example : (MergeTree.merge (.chunk [(3 : Fin 10), 7]) (.chunk [5, 1])).eval = ⟨1, 7⟩ := by decide

/-! ### C41 empty and oversized requests -/

/-- **C41** violated: `xCount = 0` never returns, for every register width and every other argument. -/
theorem C41_zero_width_hangs (N : Nat) (hN : 0 < N) (o : FOps F) (gen : F → F → F) (buf : List F) (xOff yOff : F)
    (Y : Int) (xStep yStep : F) :
    genUniformGrid2D N hN o gen buf xOff yOff 0 Y xStep yStep = .error .infiniteLoop := by
  have h1 : imul 0 Y = .ok 0 := by unfold imul; simp
  have h2 : axisReset N true iota (fun _ => 0) 0 0 = .error .infiniteLoop := by
    unfold axisReset resetLoop
    simp [toSize, hN]
  unfold genUniformGrid2D
  rw [h1, ok_bind, h2]; rfl

/-- **C41** violated: a request for no outputs reads `noiseOut[0]`, outside an empty array. -/
theorem C41_no_rows_reads_outside (N : Nat) (hN : 0 < N) (o : FOps F) (gen : F → F → F) (xOff yOff : F)
    (X : Nat) (hX : 0 < X) (hX2 : X < 2 ^ 31) (xStep yStep : F) :
    genUniformGrid2D N hN o gen [] xOff yOff X 0 xStep yStep = .error .badAccess := by
  have h1 : imul X 0 = .ok 0 := by unfold imul; simp
  obtain ⟨l, e, -⟩ := adv2_spec (N := N) (init := true) (T := 0) (V := fun _ => False) (J := fun _ => 0) (n := fun _ => 0)
    (x := iota) (y := fun _ => 0) hX hX2 (by omega) (fun i h => h.elim) (fun i h => h.elim) (fun i h => h.elim)
  unfold genUniformGrid2D
  rw [h1, ok_bind, e, ok_bind]
  simp only
  unfold mainLoop
  rw [if_neg (by simp [start])]
  rw [ok_bind]
  show storeRemaining N false [] 0 0 _ _ _ = _
  unfold storeRemaining
  simp only
  rw [if_pos (by simp; omega), if_neg (by simp)]
  simp [store, laneList]
  rw [ok_bind]
  unfold minMaxTail
  simp [load1]

/-- **C41** violated: the same for position arrays with `count = 0`. -/
theorem C41_no_positions_reads_outside (N : Nat) (hN : 0 < N) (o : FOps F) (junk : Lanes F) (gen : List F → F)
    (arrs : List (F × List F)) : genPositionArray N hN o junk gen [] 0 arrs = .error .badAccess := by
  have hla := loadAll_ok (fun a => loadRemaining N junk a 0 0) (arrs.map (·.2)) (fun _ i => if (i : Int) < 0 - 0 then ⊤ else junk i)
    (by
      intro a _
      unfold loadRemaining
      rw [if_pos rfl, if_neg (by omega)]
      congr 1)
  unfold genPositionArray
  simp only
  unfold mainLoop
  rw [if_neg (by simp [start])]
  rw [ok_bind]
  simp only [start]
  rw [hla, ok_bind]
  unfold storeRemaining
  simp only
  rw [if_pos (by simp), if_neg (by simp)]
  simp [store, laneList]
  rw [ok_bind]
  unfold minMaxTail
  simp [load1]

/-- **C41** violated: counts whose product exceeds `INT_MAX` are undefined behaviour although the array index type is
`intptr_t`. -/
theorem C41_overflow (N : Nat) (hN : 0 < N) (o : FOps F) (gen : F → F → F) (buf : List F) (xOff yOff : F)
    (X Y : Nat) (h : 2 ^ 31 ≤ X * Y) (xStep yStep : F) :
    genUniformGrid2D N hN o gen buf xOff yOff X Y xStep yStep = .error .intOverflow := by
  have h1 : imul X Y = .error .intOverflow := by
    unfold imul
    have : ((X * Y : Nat) : Int) = (X : Int) * Y := by push_cast; rfl
    rw [← this, if_neg (by omega)]
  unfold genUniformGrid2D
  rw [h1]; rfl

/-- The product of two `int` sizes is exact when it fits an `int`, and undefined behaviour otherwise, whatever
the signs. -/
theorem C41_product (a b : Int) :
    imul a b = (if -2147483648 ≤ a * b ∧ a * b ≤ 2147483647 then .ok (a * b) else .error .intOverflow) := by
  unfold imul
  by_cases h : -2147483648 ≤ a * b ∧ a * b ≤ 2147483647
  · rw [if_pos h, if_pos (by omega)]
  · rw [if_neg h, if_neg (by omega)]

example : imul (-65536) 65536 = .error .intOverflow ∧ imul (-65536) 32768 = .ok (-2147483648) := by decide

/-! ### Non-vacuity -/

/-- Ordered "floats" for examples: integers 0..999 with saturating position arithmetic. -/
def exOps : FOps (Fin 1000) where
  conv := fun i => Fin.ofNat 1000 i.toNat
  fma := fun a b c => a * b + c
  add := fun a b => a + b
  mul := fun a b => a * b
  cos := fun a => a
  sin := fun a => a

/-- A 3x3 grid at width 4 (two full registers and a remainder, rows shorter than a register) in an array of ten. -/
example : genUniformGrid2D 4 (by omega) exOps (fun x y => x + 10 * y) (List.replicate 10 999) 1 2 3 3 1 2 =
    .ok ([21, 22, 23, 41, 42, 43, 61, 62, 63, 999], ⟨21, 63⟩) := by decide +kernel

/-- Five positions at width 4: the last register overlaps the first. -/
example : genPositionArray 4 (by omega) exOps (fun _ => 0) (fun p => p.sum) (List.replicate 6 999) 5
    [(1, [10, 20, 30, 40, 50]), (2, [1, 2, 3, 4, 5])] = .ok ([14, 25, 36, 47, 58, 999], ⟨14, 58⟩) := by decide +kernel

end FastNoise.Grid
