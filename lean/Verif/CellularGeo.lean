import Verif.CellularLemmas
import Mathlib.Data.List.Forall2
import Mathlib.Analysis.Real.Sqrt
import Mathlib.Data.BitVec
/-! # Geometry of the 3x3 neighbourhood -/
namespace FastNoise.Cellular
open FastNoise.Hash FastNoise.Num FastNoise.Basic

/-- Squared Euclidean norm. -/
noncomputable def normSq (l : List ℝ) : ℝ := (l.map (fun p => p ^ 2)).sum

@[simp] theorem normSq_nil : normSq [] = 0 := rfl
@[simp] theorem normSq_cons (a : ℝ) (l : List ℝ) : normSq (a :: l) = a ^ 2 + normSq l := by simp [normSq]

theorem normSq_nonneg (l : List ℝ) : 0 ≤ normSq l := by
  induction l with
  | nil => simp
  | cons a t ih => rw [normSq_cons]; positivity

theorem magSq_eq (l : List ℝ) : magSq l = normSq l := by
  induction l with
  | nil => rfl
  | cons a t ih =>
    cases t with
    | nil => simp [magSq]; ring
    | cons b u => rw [magSq, ih]; simp [fma]; ring; simp

/-- Inner product. -/
noncomputable def inner (a b : List ℝ) : ℝ := (List.zipWith (· * ·) a b).sum

theorem cauchy (a b : List ℝ) : inner a b ^ 2 ≤ normSq a * normSq b := by
  induction a generalizing b with
  | nil => simp [inner]
  | cons x a ih =>
    cases b with
    | nil => simp [inner]
    | cons y b =>
      have h := ih b
      have hA := normSq_nonneg a
      have hB := normSq_nonneg b
      have e : inner (x :: a) (y :: b) = x * y + inner a b := by simp [inner]
      rw [e, normSq_cons, normSq_cons]
      generalize inner a b = S at *
      generalize normSq a = A at *
      generalize normSq b = B at *
      -- x²B + y²A ≥ 2xyS
      have key : 2 * (x * y) * S ≤ x ^ 2 * B + y ^ 2 * A := by
        rcases eq_or_lt_of_le hA with h0 | h0
        · have : S = 0 := by rw [← h0] at h; nlinarith
          rw [this, ← h0]; nlinarith [mul_nonneg (sq_nonneg x) hB]
        · have : 0 ≤ A * (x ^ 2 * B + y ^ 2 * A - 2 * (x * y) * S) := by
            have : A * (x ^ 2 * B + y ^ 2 * A - 2 * (x * y) * S) = x ^ 2 * (A * B - S ^ 2) + (x * S - y * A) ^ 2 := by ring
            rw [this]
            have := mul_nonneg (sq_nonneg x) (sub_nonneg.mpr h)
            nlinarith [sq_nonneg (x * S - y * A)]
          nlinarith [(mul_nonneg_iff_of_pos_left h0).mp this]
      nlinarith

theorem normSq_add (a b : List ℝ) (h : a.length = b.length) :
    normSq (List.zipWith (· + ·) a b) = normSq a + 2 * inner a b + normSq b := by
  induction a generalizing b with
  | nil => cases b with | nil => simp [inner] | cons => simp at h
  | cons x a ih =>
    cases b with
    | nil => simp at h
    | cons y b =>
      have := ih b (by simpa using h)
      simp only [List.zipWith_cons_cons, normSq_cons, this]
      simp [inner]; ring

theorem normSq_add_le (a b : List ℝ) (h : a.length = b.length) :
    normSq (List.zipWith (· + ·) a b) ≤ (√(normSq a) + √(normSq b)) ^ 2 ∧
    (√(normSq a) - √(normSq b)) ^ 2 ≤ normSq (List.zipWith (· + ·) a b) := by
  rw [normSq_add a b h]
  have ha := Real.sq_sqrt (normSq_nonneg a)
  have hb := Real.sq_sqrt (normSq_nonneg b)
  have hab : |inner a b| ≤ √(normSq a) * √(normSq b) := by
    rw [← Real.sqrt_mul (normSq_nonneg a)]
    exact Real.abs_le_sqrt (cauchy a b)
  obtain ⟨h1, h2⟩ := abs_le.mp hab
  constructor <;> nlinarith

/-! ## Cells -/

/-- The cell with integer coordinates `m`, as the loops represent it. -/
noncomputable def cellOf (m : List ℤ) : List (ℝ × I32) := List.zipWith (fun (k : ℤ) p => ((k : ℝ), BitVec.ofInt 32 k * p)) m primes

theorem mem_nested (c : List (ℝ × I32)) (l : List (List (ℝ × I32))) : c ∈ nested l ↔ List.Forall₂ (· ∈ ·) c l := by
  induction l generalizing c with
  | nil => simp [nested]
  | cons a r ih =>
    simp only [nested, List.mem_flatMap, List.mem_map]
    constructor
    · rintro ⟨x, hx, y, hy, rfl⟩
      exact List.Forall₂.cons hx ((ih y).mp hy)
    · intro h
      cases h with
      | cons h1 h2 => exact ⟨_, h1, _, (ih _).mpr h2, rfl⟩

/-- Cell coordinates representable with their neighbours. -/
def CellRange (x : ℝ) : Prop := -2 ^ 31 < roundEven x ∧ roundEven x < 2 ^ 31

theorem axisCells_eq (x : ℝ) (p : I32) (h : CellRange x) :
    axisCells x p = [((roundEven x - 1 : ℤ), BitVec.ofInt 32 (roundEven x - 1) * p), ((roundEven x : ℤ), BitVec.ofInt 32 (roundEven x) * p),
      ((roundEven x + 1 : ℤ), BitVec.ofInt 32 (roundEven x + 1) * p)].map (fun q : ℤ × I32 => ((q.1 : ℝ), q.2)) := by
  unfold CellRange at h
  have c1 : convertI32 x = BitVec.ofInt 32 (roundEven x) := by rw [convertI32, if_pos ⟨by omega, h.2⟩]
  have c2 : convertI32 x + (-1) = BitVec.ofInt 32 (roundEven x - 1) := by
    rw [c1, Int.sub_eq_add_neg, BitVec.ofInt_add]; rfl
  have c3 : (BitVec.ofInt 32 (roundEven x - 1)).toInt = roundEven x - 1 := by
    rw [BitVec.toInt_ofInt]
    refine Int.bmod_eq_of_le ?_ ?_ <;> omega
  have c4 : BitVec.ofInt 32 (roundEven x - 1) * p + p = BitVec.ofInt 32 (roundEven x) * p := by
    have : BitVec.ofInt 32 (roundEven x) = BitVec.ofInt 32 (roundEven x - 1) + 1 := by
      rw [show roundEven x = (roundEven x - 1) + 1 by omega, BitVec.ofInt_add]
      rw [show roundEven x - 1 + 1 - 1 = roundEven x - 1 by omega]; rfl
    rw [this, add_mul, one_mul]
  have c5 : BitVec.ofInt 32 (roundEven x) * p + p = BitVec.ofInt 32 (roundEven x + 1) * p := by
    rw [BitVec.ofInt_add, show BitVec.ofInt 32 1 = (1 : I32) from rfl, add_mul, one_mul]
  simp only [axisCells, c2, c3, c4, c5, List.map_cons, List.map_nil]
  push_cast
  congr 3
  · ring
  · congr 2; ring

/-- Every cell within one of the rounded position is visited, and only those. -/
theorem cellOf_mem_visited (scaled : Pos) (m : List ℤ) (hl : m.length = scaled.length) (h4 : scaled.length ≤ 4)
    (hr : ∀ x ∈ scaled, CellRange x) (hm : ∀ i (h : i < m.length), |m[i] - roundEven (scaled[i]'(by omega))| ≤ 1) :
    cellOf m ∈ visited scaled := by
  unfold visited
  rw [mem_nested, List.forall₂_iff_get]
  have l1 : (cellOf m).length = m.length := by simp [cellOf, primes]; omega
  have l2 : (List.zipWith axisCells scaled primes).length = scaled.length := by simp [primes]; omega
  refine ⟨by rw [l1, l2, hl], ?_⟩
  intro i h1 h2
  have hi : i < m.length := by omega
  simp only [List.get_eq_getElem, cellOf, List.getElem_zipWith]
  rw [axisCells_eq _ _ (hr _ (List.getElem_mem _))]
  have := abs_le.mp (hm i hi)
  have : m[i] = roundEven (scaled[i]'(by omega)) - 1 ∨ m[i] = roundEven (scaled[i]'(by omega)) ∨ m[i] = roundEven (scaled[i]'(by omega)) + 1 := by omega
  simp only [List.map_cons, List.map_nil, List.mem_cons]
  rcases this with e | e | e <;> rw [e] <;> simp

theorem visited_cells (scaled : Pos) (h4 : scaled.length ≤ 4) (hr : ∀ x ∈ scaled, CellRange x) (cell : List (ℝ × I32)) (hc : cell ∈ visited scaled) :
    ∃ m : List ℤ, m.length = scaled.length ∧ cell = cellOf m := by
  unfold visited at hc
  rw [mem_nested, List.forall₂_iff_get] at hc
  obtain ⟨hl, hc⟩ := hc
  have l2 : (List.zipWith axisCells scaled primes).length = scaled.length := by simp [primes]; omega
  have each : ∀ i (h : i < cell.length), ∃ k : ℤ, cell[i] = ((k : ℝ), BitVec.ofInt 32 k * primes[i]'(by simp [primes]; omega)) := by
    intro i h
    have := hc i h (by omega)
    simp only [List.get_eq_getElem, List.getElem_zipWith] at this
    rw [axisCells_eq _ _ (hr _ (List.getElem_mem _))] at this
    simp only [List.map_cons, List.map_nil, List.mem_cons, List.not_mem_nil, or_false] at this
    rcases this with e | e | e <;> exact ⟨_, e⟩
  choose f hf using each
  refine ⟨List.ofFn (fun i : Fin cell.length => f i i.isLt), by simp; omega, ?_⟩
  apply List.ext_getElem
  · simp [cellOf, primes]; omega
  · intro i h1 h2
    rw [hf i h1]
    simp [cellOf]

/-- The centre of a cell is its integer coordinates. -/
theorem cellOf_fst (m : List ℤ) (h4 : m.length ≤ 4) : (cellOf m).map Prod.fst = m.map (fun k : ℤ => (k : ℝ)) := by
  apply List.ext_getElem
  · simp [cellOf, primes]; omega
  · intro i h1 h2; simp [cellOf]

theorem cellOf_snd (m : List ℤ) : (cellOf m).map Prod.snd = primed (m.map (BitVec.ofInt 32)) := by
  apply List.ext_getElem
  · simp [cellOf, primed]
  · intro i h1 h2; simp [cellOf, primed]

/-! ## Feature points -/

theorem featurePoint_eq (t : Tab) (j : ℝ) (h : I32) (centre : List ℝ) :
    featurePoint t j h centre = List.zipWith (· + ·) centre ((t.off h).map (· * (j * (1 / √(magSq (t.off h)))))) := by
  unfold featurePoint
  apply List.ext_getElem
  · simp [Nat.min_comm]
  · intro i h1 h2; simp [fma]; ring

theorem normSq_smul (k : ℝ) (l : List ℝ) : normSq (l.map (· * k)) = k ^ 2 * normSq l := by
  induction l with
  | nil => simp
  | cons a t ih => simp [ih]; ring

theorem offset_norm (t : Tab) (j : ℝ) (h : I32) (hp : 0 < magSq (t.off h)) :
    normSq ((t.off h).map (· * (j * (1 / √(magSq (t.off h)))))) = j ^ 2 := by
  rw [normSq_smul, ← magSq_eq, mul_pow, div_pow, Real.sq_sqrt hp.le]
  field_simp

theorem half_ne (n m : ℤ) : (n : ℝ) - (2 * m + 1 : ℤ) / 2 ≠ 0 := by
  intro h
  have : ((2 * n : ℤ) : ℝ) = ((2 * m + 1 : ℤ) : ℝ) := by push_cast at *; linarith
  have := Int.cast_injective (α := ℝ) this
  omega

theorem off_pos (pos : Pos) (h : I32) : 0 < magSq ((tab pos).off h) := by
  rw [magSq_eq]
  have key : ∀ a : ℝ, a ≠ 0 → ∀ l, 0 < normSq (a :: l) := by
    intro a ha l
    rw [normSq_cons]
    have := normSq_nonneg l
    have : 0 < a ^ 2 := by positivity
    linarith
  unfold tab
  split
  · refine key _ ?_ _
    have := half_ne (h &&& 0x7ff).toInt 1023
    norm_num at this ⊢; exact this
  · split
    · refine key _ ?_ _
      have := half_ne (h &&& 0x3ff).toInt 511
      norm_num at this ⊢; exact this
    · refine key _ ?_ _
      have := half_ne (h &&& 0xff).toInt 127
      norm_num at this ⊢; exact this

theorem off_length (pos : Pos) (h : I32) (h2 : 2 ≤ pos.length) (h4 : pos.length ≤ 4) : ((tab pos).off h).length = pos.length := by
  unfold tab
  split
  · simp [tab2]; omega
  · split
    · simp [tab3]; omega
    · simp [tab4]; omega

/-! ## Far cells are farther -/

theorem far_cell (s : List ℝ) (m : List ℤ) (hl : m.length = s.length) (hs : ∀ x ∈ s, |x| ≤ 1 / 2)
    (hm : ∃ i, ∃ h : i < m.length, 2 ≤ |m[i]|) :
    normSq s + 2 ≤ normSq (List.zipWith (fun (k : ℤ) x => (k : ℝ) - x) m s) := by
  have weak : ∀ (s : List ℝ) (m : List ℤ), m.length = s.length → (∀ x ∈ s, |x| ≤ 1 / 2) →
      normSq s ≤ normSq (List.zipWith (fun (k : ℤ) x => (k : ℝ) - x) m s) := by
    intro s
    induction s with
    | nil => intro m h _; cases m <;> simp at h ⊢
    | cons x s ih =>
      intro m h hs
      cases m with
      | nil => simp at h
      | cons k m =>
        simp only [List.zipWith_cons_cons, normSq_cons]
        have h1 := ih m (by simpa using h) (fun y hy => hs y (by simp [hy]))
        have h2 : x ^ 2 ≤ ((k : ℝ) - x) ^ 2 := by
          have hx := abs_le.mp (hs x (by simp))
          rcases lt_trichotomy k 0 with hk | hk | hk
          · have : (k : ℝ) ≤ -1 := by exact_mod_cast (by omega : k ≤ -1)
            nlinarith
          · subst hk; simp
          · have : (1 : ℝ) ≤ k := by exact_mod_cast (by omega : 1 ≤ k)
            nlinarith
        linarith
  induction s generalizing m with
  | nil => obtain ⟨i, h, _⟩ := hm; simp at hl; subst hl; simp at h
  | cons x s ih =>
    cases m with
    | nil => simp at hl
    | cons k m =>
      simp only [List.zipWith_cons_cons, normSq_cons]
      have hx := abs_le.mp (hs x (by simp))
      have hs' : ∀ y ∈ s, |y| ≤ 1 / 2 := fun y hy => hs y (by simp [hy])
      have hl' : m.length = s.length := by simpa using hl
      obtain ⟨i, hi, h2⟩ := hm
      cases i with
      | zero =>
        have h2 : 2 ≤ |k| := by simpa using h2
        have h3 := weak s m hl' hs'
        have : x ^ 2 + 2 ≤ ((k : ℝ) - x) ^ 2 := by
          rcases le_abs.mp h2 with hk | hk
          · have : (2 : ℝ) ≤ k := by exact_mod_cast hk
            nlinarith
          · have : (k : ℝ) ≤ -2 := by exact_mod_cast (by omega : k ≤ -2)
            nlinarith
        linarith
      | succ i =>
        have h3 := ih m hl' hs' ⟨i, by simpa using hi, by simpa using h2⟩
        have : x ^ 2 ≤ ((k : ℝ) - x) ^ 2 := by
          rcases lt_trichotomy k 0 with hk | hk | hk
          · have : (k : ℝ) ≤ -1 := by exact_mod_cast (by omega : k ≤ -1)
            nlinarith
          · subst hk; simp
          · have : (1 : ℝ) ≤ k := by exact_mod_cast (by omega : 1 ≤ k)
            nlinarith
        linarith

theorem normSq_le_quarter (s : List ℝ) (hs : ∀ x ∈ s, |x| ≤ 1 / 2) : normSq s ≤ s.length / 4 := by
  induction s with
  | nil => simp
  | cons x s ih =>
    have h1 := ih (fun y hy => hs y (by simp [hy]))
    have hx := abs_le.mp (hs x (by simp))
    rw [normSq_cons]
    push_cast [List.length_cons]
    nlinarith

/-- Radius inequality: `√(r² + 2) - r ≥ 2 J` for all `r ≤ √n / 2`. -/
theorem radius (n : ℕ) (J R F : ℝ) (hJ0 : 0 ≤ J) (hJ : J * √n + 2 * J ^ 2 ≤ 1) (hR0 : 0 ≤ R) (hR : R ≤ n / 4) (hF : R + 2 ≤ F) :
    √R + J ≤ √F - J := by
  have hr : √R ≤ √n / 2 := by
    have : √((n : ℝ) / 4) = √n / 2 := by
      rw [Real.sqrt_div (by positivity), show (4 : ℝ) = 2 ^ 2 by norm_num, Real.sqrt_sq (by norm_num)]
    rw [← this]
    exact Real.sqrt_le_sqrt hR
  have h1 : √(R + 2) ≤ √F := Real.sqrt_le_sqrt hF
  have h2 : √R + 2 * J ≤ √(R + 2) := by
    apply Real.le_sqrt_of_sq_le
    have := Real.sq_sqrt hR0
    have h0 := Real.sqrt_nonneg R
    nlinarith [mul_le_mul_of_nonneg_left hr hJ0]
  linarith

end FastNoise.Cellular
