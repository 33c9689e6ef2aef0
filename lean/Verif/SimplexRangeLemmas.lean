import Verif.SimplexRange
import Verif.SimplexRaw
import Verif.RangeCertSimplex2All
import Verif.RangeCertSimplex3All
import Verif.RangeCertSimplex4All
import Verif.RangeCertSuper2All
import Verif.RangeCertSuper3All
import Verif.RangeCertSuper4All
import Mathlib.Data.Fin.Tuple.Sort
import Mathlib.Algebra.BigOperators.Fin
/-! # Bounds of Simplex and SuperSimplex sums, from the certificates -/
namespace FastNoise.Simplex
open FastNoise.Hash FastNoise.Num FastNoise.Gradient FastNoise.Lattice FastNoise.RangeCheck

noncomputable section

variable {n : Nat}

/-! ## Numbers -/

theorem sqrt2_bounds : (1.41421356237309504 : ℝ) ≤ √2 ∧ √2 ≤ 1.41421356237309505 :=
  ⟨Real.le_sqrt_of_sq_le (by norm_num), Real.sqrt_le_iff.mpr ⟨by norm_num, by norm_num⟩⟩
theorem sqrt3_bounds : (1.73205080756887729 : ℝ) ≤ √3 ∧ √3 ≤ 1.7320508075688773 :=
  ⟨Real.le_sqrt_of_sq_le (by norm_num), Real.sqrt_le_iff.mpr ⟨by norm_num, by norm_num⟩⟩
theorem sqrt5_bounds : (2.23606797749978969 : ℝ) ≤ √5 ∧ √5 ≤ 2.2360679774997897 :=
  ⟨Real.le_sqrt_of_sq_le (by norm_num), Real.sqrt_le_iff.mpr ⟨by norm_num, by norm_num⟩⟩

theorem tilt2 : tilt 2 = (√3 / 3 - 1) / 2 := by
  have h : √(3 : ℝ) ^ 2 = 3 := Real.sq_sqrt (by norm_num)
  have h0 : √(3 : ℝ) ≠ 0 := by positivity
  have e : 1 / √(3 : ℝ) = √3 / 3 := by field_simp; linarith
  simp only [tilt, squash]
  norm_num
  rw [← one_div, e]
theorem tilt4 : tilt 4 = (√5 / 5 - 1) / 4 := by
  have h : √(5 : ℝ) ^ 2 = 5 := Real.sq_sqrt (by norm_num)
  have h0 : √(5 : ℝ) ≠ 0 := by positivity
  have e : 1 / √(5 : ℝ) = √5 / 5 := by field_simp; linarith
  simp only [tilt, squash]
  norm_num
  rw [← one_div, e]

theorem covers2 {gs : List (List Z)} (hm : ∀ (i : Fin 2) (b : Fin 2 → Bool), List.ofFn (fun j => zi (tab (2 ^ 40 : Nat) 2654455883764 (-232354146751) (-560952532360) i b j)) ∈ gs) :
    Covers gs 2 (2 ^ 40) (3 / 2) := by
  have h2 := sqrt2_bounds
  have h3 := sqrt3_bounds
  have := covers (n := 2) (S := 2 ^ 40) (ε := 1 / 2) (.inl rfl) (P := 2654455883764) (K1 := -232354146751) (K2 := -560952532360) ?_ ?_ ?_ hm
  · norm_num at this ⊢; exact this
  · simp only [odd, if_true]; push_cast
    rw [abs_le]; constructor <;> linarith
  · rw [tilt2]; push_cast
    rw [abs_le]; constructor <;> linarith
  · rw [tilt2]; simp only [odd, if_true]; push_cast
    have p1 : √(3 : ℝ) * √2 ≤ 1.7320508075688773 * 1.41421356237309505 := mul_le_mul h3.2 h2.2 (by positivity) (by norm_num)
    have p2 : (1.73205080756887729 : ℝ) * 1.41421356237309504 ≤ √3 * √2 := mul_le_mul h3.1 h2.1 (by positivity) (by positivity)
    rw [abs_le]; constructor <;> nlinarith
theorem covers3 {gs : List (List Z)} (hm : ∀ (i : Fin 3) (b : Fin 3 → Bool), List.ofFn (fun j => zi (tab (2 : Nat) 0 (-1) 0 i b j)) ∈ gs) : Covers gs 3 2 0 := by
  have := covers (n := 3) (S := 2) (ε := 0) (.inr (.inl rfl)) (P := 0) (K1 := -1) (K2 := 0) (by simp [odd]) (by simp [tilt]; norm_num) (by simp [odd]) hm
  simpa using this
theorem covers4 {gs : List (List Z)} (hm : ∀ (i : Fin 4) (b : Fin 4 → Bool), List.ofFn (fun j => zi (tab (2 ^ 40 : Nat) 0 (-151948769856) 0 i b j)) ∈ gs) :
    Covers gs 4 (2 ^ 40) (5 / 2) := by
  have h5 := sqrt5_bounds
  have := covers (n := 4) (S := 2 ^ 40) (ε := 1 / 2) (.inr (.inr rfl)) (P := 0) (K1 := -151948769856) (K2 := 0) ?_ ?_ ?_ hm
  · norm_num at this ⊢; exact this
  · simp [odd]
  · rw [tilt4]; push_cast
    rw [abs_le]; constructor <;> linarith
  · simp [odd]

/-! ## Simplex noise -/

/-- The corners of the simplex, in the order of the axes. -/
def simplexV (n : Nat) : Fin (n + 1) → Fin n → ℤ := fun k i => if (i : Nat) < k then 1 else 0

theorem simplexV_flip (k : Fin (n + 1)) (i : Fin n) : simplexV n (Fin.revPerm k) i = 1 - simplexV n k i.rev := by
  simp only [simplexV, Fin.revPerm_apply, Fin.val_rev]
  split_ifs <;> omega

theorem simplexV_sum {α : Fin n → ℝ} (h : Sorted α) (k : Fin (n + 1)) : ∑ i, |α i - simplexV n k i| ≤ n := by
  refine (Finset.sum_le_sum (g := fun _ => (1 : ℝ)) fun i _ => ?_).trans (by simp)
  have := h.1 i
  unfold simplexV
  split_ifs <;> (rw [abs_le]; push_cast; constructor <;> linarith)

theorem simplex2_sorted (α : Fin 2 → ℝ) (hα : Sorted α) (G : Fin 3 → Fin 2 → ℝ) (hG : ∀ k, IsGrad (G k)) :
    ∑ k, bump (1 / 2) (fun i => α i - simplexV 2 k i) (G k) ≤ simplexPeak 2 :=
  whole_le isGrad_symmetric _ Fin.revPerm simplexV_flip
    (half_le (q := Simplex2.par) (N := 65536) (S := 2 ^ 40) (δ := 3 / 2) (U := 2) rfl (by norm_num [Simplex2.par]) (by norm_num) (by norm_num) (covers2 (gs := Simplex2.gs) (by decide +kernel)) _
      Simplex2.st (by decide +kernel) (by decide +kernel) 32768 rfl rfl _ Simplex2.checked (fun α h k => by exact_mod_cast simplexV_sum h k) (by norm_num [unit, Simplex2.par])
      (by norm_num [unit, Simplex2.par, simplexPeak])) α hα G hG
theorem simplex3_sorted (α : Fin 3 → ℝ) (hα : Sorted α) (G : Fin 4 → Fin 3 → ℝ) (hG : ∀ k, IsGrad (G k)) :
    ∑ k, bump (3 / 5) (fun i => α i - simplexV 3 k i) (G k) ≤ simplexPeak 3 :=
  whole_le isGrad_symmetric _ Fin.revPerm simplexV_flip
    (half_le (q := Simplex3.par) (N := 65536) (S := 2) (δ := 0) (U := 3) rfl (by norm_num [Simplex3.par]) (by norm_num) (by norm_num) (covers3 (gs := Simplex3.gs) (by decide +kernel)) _
      Simplex3.st (by decide +kernel) (by decide +kernel) 32768 rfl rfl _ Simplex3.checked (fun α h k => by exact_mod_cast simplexV_sum h k) (by norm_num [unit, Simplex3.par])
      (by norm_num [unit, Simplex3.par, simplexPeak])) α hα G hG
theorem simplex4_sorted (α : Fin 4 → ℝ) (hα : Sorted α) (G : Fin 5 → Fin 4 → ℝ) (hG : ∀ k, IsGrad (G k)) :
    ∑ k, bump (3 / 5) (fun i => α i - simplexV 4 k i) (G k) ≤ simplexPeak 4 :=
  whole_le isGrad_symmetric _ Fin.revPerm simplexV_flip
    (half_le (q := Simplex4.par) (N := 65536) (S := 2 ^ 40) (δ := 5 / 2) (U := 4) rfl (by norm_num [Simplex4.par]) (by norm_num) (by norm_num) (covers4 (gs := Simplex4.gs) (by decide +kernel)) _
      Simplex4.st (by decide +kernel) (by decide +kernel) 32768 rfl rfl _ Simplex4.checked (fun α h k => by exact_mod_cast simplexV_sum h k) (by norm_num [unit, Simplex4.par])
      (by norm_num [unit, Simplex4.par, simplexPeak])) α hα G hG

theorem simplex_sorted (hn : n = 2 ∨ n = 3 ∨ n = 4) (α : Fin n → ℝ) (hα : Sorted α) (G : Fin (n + 1) → Fin n → ℝ) (hG : ∀ k, IsGrad (G k)) :
    ∑ k, bump (simplexRadiusSq n) (fun i => α i - simplexV n k i) (G k) ≤ simplexPeak n := by
  rcases hn with rfl | rfl | rfl
  · simpa [simplexRadiusSq] using simplex2_sorted α hα G hG
  · simpa [simplexRadiusSq] using simplex3_sorted α hα G hG
  · simpa [simplexRadiusSq] using simplex4_sorted α hα G hG

theorem frac_range (p : Fin n → ℝ) (i : Fin n) : 0 ≤ frac p i ∧ frac p i ≤ 1 := ⟨Int.fract_nonneg _, (Int.fract_lt_one _).le⟩

/-- The corners of the simplex around `p`, with any gradients. -/
theorem corners_le_of {R peak : ℝ} {P : (Fin n → ℝ) → Prop} (hP : Symmetric P)
    (hsort : ∀ α : Fin n → ℝ, Sorted α → ∀ G : Fin (n + 1) → Fin n → ℝ, (∀ k, P (G k)) → ∑ k, bump R (fun i => α i - simplexV n k i) (G k) ≤ peak) (p : Fin n → ℝ) (rank : Equiv.Perm (Fin n)) (hs : ∀ i j, rank i < rank j → frac p j ≤ frac p i) (G : Fin (n + 1) → Fin n → ℝ) (hG : ∀ k, P (G k)) :
    ∑ k : Fin (n + 1), bump R (fun i => skewed p i - corner (base p) rank k i) (G k) ≤ peak := by
  have hα : Sorted (frac p ∘ rank.symm) := by
    refine ⟨fun i => frac_range p _, fun i j hij => ?_⟩
    rcases eq_or_lt_of_le hij with rfl | h
    · exact le_rfl
    · exact hs _ _ (by simpa using h)
  refine (le_of_eq (Finset.sum_congr rfl fun k _ => ?_)).trans (hsort _ hα (fun k => G k ∘ rank.symm) fun k => hP.1 _ _ (hG k))
  rw [← bump_perm _ _ (G k ∘ rank.symm) rank]
  congr 1
  · funext i
    simp only [Function.comp_apply, Equiv.symm_apply_apply, corner, simplexV, frac, base]
    push_cast; ring
  · funext i; simp

theorem corners_le (hn : n = 2 ∨ n = 3 ∨ n = 4) (p : Fin n → ℝ) (rank : Equiv.Perm (Fin n)) (hs : ∀ i j, rank i < rank j → frac p j ≤ frac p i) (G : Fin (n + 1) → Fin n → ℝ) (hG : ∀ k, IsGrad (G k)) :
    ∑ k : Fin (n + 1), bump (simplexRadiusSq n) (fun i => skewed p i - corner (base p) rank k i) (G k) ≤ simplexPeak n :=
  corners_le_of isGrad_symmetric (fun α hα G hG => simplex_sorted hn α hα G hG) p rank hs G hG

theorem simplex_abs_le (hn : n = 2 ∨ n = 3 ∨ n = 4) (ft : Feat) (seed : I32) (p : Fin n → ℝ) (rank : Equiv.Perm (Fin n)) (hs : ∀ i j, rank i < rank j → frac p j ≤ frac p i) :
    |∑ k : Fin (n + 1), contribution (Lattice.gradDot ft) seed (simplexRadiusSq n) p (corner (base p) rank k)| ≤ simplexPeak n := by
  choose G hG he using fun k : Fin (n + 1) => contribution_bump hn ft seed (simplexRadiusSq n) p (corner (base p) rank k)
  rw [Finset.sum_congr rfl fun k _ => he k, abs_le]
  have h1 := corners_le hn p rank hs G hG
  have h2 := corners_le hn p rank hs (fun k => -G k) fun k => (hG k).neg
  simp only [bump_neg, Finset.sum_neg_distrib] at h2
  exact ⟨by linarith, h1⟩

/-! ## SuperSimplex noise -/

/-- The grid points that may be in reach. -/
def superV (n : Nat) : Fin (4 ^ n) → Fin n → ℤ := fun k i => ((finFunctionFinEquiv.symm k i : Fin 4) : ℕ) - 1

/-- The point reflection, on indices. -/
def superFlip (n : Nat) : Equiv.Perm (Fin (4 ^ n)) :=
  finFunctionFinEquiv.symm.trans (((Equiv.arrowCongr Fin.revPerm (Fin.revPerm (n := 4)))).trans finFunctionFinEquiv)

theorem superV_flip (k : Fin (4 ^ n)) (i : Fin n) : superV n (superFlip n k) i = 1 - superV n k i.rev := by
  simp only [superV, superFlip, Equiv.trans_apply, Equiv.symm_apply_apply, Equiv.arrowCongr_apply, Function.comp_apply, Fin.revPerm_apply, Fin.revPerm_symm, Fin.val_rev]
  omega

theorem superV_sum {α : Fin n → ℝ} (h : Sorted α) (k : Fin (4 ^ n)) : ∑ i, |α i - superV n k i| ≤ 2 * n := by
  refine (Finset.sum_le_sum (g := fun _ => (2 : ℝ)) fun i _ => ?_).trans (by simp; linarith)
  have h1 := h.1 i
  have h2 : -1 ≤ superV n k i ∧ superV n k i ≤ 2 := by unfold superV; omega
  have h3 : (-1 : ℝ) ≤ superV n k i := by exact_mod_cast h2.1
  have h4 : (superV n k i : ℝ) ≤ 2 := by exact_mod_cast h2.2
  rw [abs_le]; constructor <;> linarith

theorem super2_sorted (α : Fin 2 → ℝ) (hα : Sorted α) (G : Fin (4 ^ 2) → Fin 2 → ℝ) (hG : ∀ k, IsGrad (G k)) :
    ∑ k, bump (2 / 3) (fun i => α i - superV 2 k i) (G k) ≤ superPeak 2 :=
  whole_le isGrad_symmetric _ (superFlip 2) superV_flip
    (half_le (q := Super2.par) (N := 65536) (S := 2 ^ 40) (δ := 3 / 2) (U := 4) rfl (by norm_num [Super2.par]) (by norm_num) (by norm_num) (covers2 (gs := Super2.gs) (by decide +kernel)) _
      Super2.st (by decide +kernel) (by decide +kernel) 32768 rfl rfl _ Super2.checked (fun α h k => by have := superV_sum h k; norm_num at this ⊢; exact this) (by norm_num [unit, Super2.par])
      (by norm_num [unit, Super2.par, superPeak])) α hα G hG
theorem super3_sorted (α : Fin 3 → ℝ) (hα : Sorted α) (G : Fin (4 ^ 3) → Fin 3 → ℝ) (hG : ∀ k, IsGrad (G k)) :
    ∑ k, bump (3 / 4) (fun i => α i - superV 3 k i) (G k) ≤ 16 * superPeak 3 :=
  whole_le isGrad_symmetric _ (superFlip 3) superV_flip
    (half_le (q := Super3.par) (N := 65536) (S := 2) (δ := 0) (U := 6) rfl (by norm_num [Super3.par]) (by norm_num) (by norm_num) (covers3 (gs := Super3.gs) (by decide +kernel)) _
      Super3.st (by decide +kernel) (by decide +kernel) 32768 rfl rfl _ Super3.checked (fun α h k => by have := superV_sum h k; norm_num at this ⊢; exact this) (by norm_num [unit, Super3.par])
      (by norm_num [unit, Super3.par, superPeak])) α hα G hG
theorem super4_sorted (α : Fin 4 → ℝ) (hα : Sorted α) (G : Fin (4 ^ 4) → Fin 4 → ℝ) (hG : ∀ k, IsGrad (G k)) :
    ∑ k, bump (4 / 5) (fun i => α i - superV 4 k i) (G k) ≤ 1.0001 * (16 * superPeak 4) :=
  whole_le isGrad_symmetric _ (superFlip 4) superV_flip
    (half_le (q := Super4.par) (N := 65536) (S := 2 ^ 40) (δ := 5 / 2) (U := 8) rfl (by norm_num [Super4.par]) (by norm_num) (by norm_num) (covers4 (gs := Super4.gs) (by decide +kernel)) _
      Super4.st (by decide +kernel) (by decide +kernel) 32768 rfl rfl _ Super4.checked (fun α h k => by have := superV_sum h k; norm_num at this ⊢; exact this) (by norm_num [unit, Super4.par])
      (by norm_num [unit, Super4.par, superPeak])) α hα G hG

/-- What SuperSimplex sums are bounded by. -/
def superMax (n : Nat) : ℝ := if n = 2 then superPeak 2 else if n = 3 then 16 * superPeak 3 else 1.0001 * (16 * superPeak 4)

theorem super_sorted (hn : n = 2 ∨ n = 3 ∨ n = 4) (α : Fin n → ℝ) (hα : Sorted α) (G : Fin (4 ^ n) → Fin n → ℝ) (hG : ∀ k, IsGrad (G k)) :
    ∑ k, bump (superRadiusSq n) (fun i => α i - superV n k i) (G k) ≤ superMax n := by
  rcases hn with rfl | rfl | rfl
  · simpa [superRadiusSq, superMax] using super2_sorted α hα G hG
  · simpa [superRadiusSq, superMax] using super3_sorted α hα G hG
  · simpa [superRadiusSq, superMax] using super4_sorted α hα G hG

theorem exists_sorted (d : Fin n → ℝ) (h : ∀ i, 0 ≤ d i ∧ d i ≤ 1) : ∃ σ : Equiv.Perm (Fin n), Sorted (d ∘ σ) := by
  refine ⟨Tuple.sort fun i => -d i, fun i => h _, fun i j hij => ?_⟩
  have := Tuple.monotone_sort (fun i => -d i) hij
  simp only [Function.comp_apply] at this ⊢
  linarith

/-- Any set of grid points, with any gradients. -/
theorem points_le_of {R peak : ℝ} {P : (Fin n → ℝ) → Prop} (hP : Symmetric P) (hr : R ≤ 2)
    (hsort : ∀ α : Fin n → ℝ, Sorted α → ∀ G : Fin (4 ^ n) → Fin n → ℝ, (∀ k, P (G k)) → ∑ k, bump R (fun i => α i - superV n k i) (G k) ≤ peak) (p : Fin n → ℝ) (s : Finset (Fin n → ℤ)) (G : (Fin n → ℤ) → Fin n → ℝ) (hG : ∀ v, P (G v)) :
    ∑ v ∈ s, bump R (fun i => skewed p i - v i) (G v) ≤ peak := by
  classical
  obtain ⟨σ, hσ⟩ := exists_sorted (frac p) (frac_range p)
  set W : Fin (4 ^ n) → Fin n → ℤ := fun k i => base p i + superV n k (σ.symm i) with hW
  have hinj : Function.Injective W := by
    intro k k' e
    apply finFunctionFinEquiv.symm.injective
    funext i
    have := congrFun e (σ i)
    simp only [hW, superV, Equiv.symm_apply_apply] at this
    exact Fin.ext (by omega)
  have hu : ∀ k, (fun i => skewed p i - W k i) = (fun i => frac p (σ i) - superV n k i) ∘ σ.symm := by
    intro k; funext i
    simp only [hW, Function.comp_apply, Equiv.apply_symm_apply, frac, base]
    push_cast; ring
  have hfar : ∀ v, (∀ k, W k ≠ v) → bump R (fun i => skewed p i - v i) (G v) = 0 := by
    intro v hv
    have : ∃ i, v i - base p i < -1 ∨ 2 < v i - base p i := by
      by_contra hcon
      push Not at hcon
      refine hv (finFunctionFinEquiv fun i => ⟨(v (σ i) - base p (σ i) + 1).toNat, by have := hcon (σ i); omega⟩) ?_
      funext i
      simp only [hW, superV, Equiv.symm_apply_apply, Equiv.apply_symm_apply]
      have := hcon i; omega
    obtain ⟨i, hi⟩ := this
    have h2 : 2 ≤ Q fun i => skewed p i - v i := by
      refine le_trans ?_ (Q_ge_one _ i)
      have hf := frac_range p i
      have e : skewed p i - v i = frac p i - (v i - base p i : ℤ) := by simp only [frac, base]; push_cast; ring
      rw [e]
      rcases hi with hi | hi
      · have : ((v i - base p i : ℤ) : ℝ) ≤ -2 := by exact_mod_cast (by omega : v i - base p i ≤ -2)
        nlinarith
      · have : (3 : ℝ) ≤ ((v i - base p i : ℤ) : ℝ) := by exact_mod_cast (by omega : 3 ≤ v i - base p i)
        nlinarith
    unfold bump
    rw [max_eq_right (by linarith)]; simp
  -- the points not in `s` get a gradient that points towards `p`
  have hpos : ∀ v : Fin n → ℤ, ∃ g, P g ∧ 0 ≤ bump R (fun i => skewed p i - v i) g := by
    intro v
    rcases le_total 0 (bump R (fun i => skewed p i - v i) (G v)) with h | h
    · exact ⟨_, hG v, h⟩
    · exact ⟨_, hP.2 _ (hG v), by rw [bump_neg]; linarith⟩
  choose H hH h0 using hpos
  have key := hsort (frac p ∘ σ) hσ (fun k => (if W k ∈ s then G (W k) else H (W k)) ∘ σ) fun k => by
    split_ifs
    · exact hP.1 _ _ (hG _)
    · exact hP.1 _ _ (hH _)
  have hterm : ∀ k g, bump R (fun i => (frac p ∘ σ) i - superV n k i) (g ∘ σ) = bump R (fun i => skewed p i - W k i) g := by
    intro k g
    rw [hu, ← bump_perm _ _ (g ∘ σ) σ.symm]
    congr 1
    funext i; simp
  simp only [hterm] at key
  refine le_trans ?_ key
  calc ∑ v ∈ s, bump R (fun i => skewed p i - v i) (G v)
      = ∑ v ∈ s.filter fun v => ∃ k, W k = v, bump R (fun i => skewed p i - v i) (G v) := by
        refine (Finset.sum_filter_of_ne fun v _ hne => ?_).symm
        by_contra hcon
        push Not at hcon
        exact hne (hfar v hcon)
    _ ≤ ∑ v ∈ Finset.univ.image W, bump R (fun i => skewed p i - v i) (if v ∈ s then G v else H v) := by
        refine le_trans (le_of_eq ?_) (Finset.sum_le_sum_of_subset_of_nonneg (s := s.filter fun v => ∃ k, W k = v) ?_ ?_)
        · exact Finset.sum_congr rfl fun v hv => by rw [if_pos (Finset.mem_filter.mp hv).1]
        · intro v hv
          obtain ⟨_, k, rfl⟩ := Finset.mem_filter.mp hv
          exact Finset.mem_image_of_mem _ (Finset.mem_univ _)
        · intro v hv hn
          obtain ⟨k, _, rfl⟩ := Finset.mem_image.mp hv
          have : W k ∉ s := fun h => hn (Finset.mem_filter.mpr ⟨h, k, rfl⟩)
          rw [if_neg this]; exact h0 _
    _ = _ := by rw [Finset.sum_image fun _ _ _ _ e => hinj e]

theorem points_le (hn : n = 2 ∨ n = 3 ∨ n = 4) (p : Fin n → ℝ) (s : Finset (Fin n → ℤ)) (G : (Fin n → ℤ) → Fin n → ℝ) (hG : ∀ v, IsGrad (G v)) :
    ∑ v ∈ s, bump (superRadiusSq n) (fun i => skewed p i - v i) (G v) ≤ superMax n :=
  points_le_of isGrad_symmetric (by unfold superRadiusSq; split_ifs <;> norm_num) (fun α hα G hG => super_sorted hn α hα G hG) p s G hG

theorem super_abs_le (hn : n = 2 ∨ n = 3 ∨ n = 4) (ft : Feat) (seed : I32) (p : Fin n → ℝ) (s : Finset (Fin n → ℤ)) :
    |∑ v ∈ s, contribution (Lattice.gradDot ft) seed (superRadiusSq n) p v| ≤ superMax n := by
  choose G hG he using fun v => contribution_bump hn ft seed (superRadiusSq n) p v
  rw [Finset.sum_congr rfl fun k _ => he k, abs_le]
  have h1 := points_le hn p s G hG
  have h2 := points_le hn p s (fun k => -G k) fun k => (hG k).neg
  simp only [bump_neg, Finset.sum_neg_distrib] at h2
  exact ⟨by linarith, h1⟩

end
end FastNoise.Simplex
