import Verif.GradientLemmas
import Mathlib.Tactic.NormNum
import Mathlib.Tactic.FieldSimp
import Mathlib.Data.Fin.VecNotation
import Mathlib.Analysis.Real.Sqrt
/-! # C26: gradient selection agrees across SIMD levels

For every hash and every real offset, whatever instruction set the code was compiled for (`ft`), a gradient dot product function
returns the inner product of the offset with one vector of the tables in `GradientSpec`, selected by documented bits of the hash.
-/
namespace FastNoise.Gradient
open FastNoise.Hash

/-- **C26**, Perlin and common gradients: every variant is the inner product with the gradient selected by the low 3 / 4 / 5 bits. -/
theorem C26_perlin (ft : Feat) (h : I32) (x y z w : ℝ) :
    dotPerlin2 ft h x y = dot2 (perlin2 (low 3 h)) x y ∧
    dotCommon ft h x y z = dot3 (common3 (low 4 h)) x y z ∧
    dotPerlin4 ft h x y z w = dot4 (perlin4 (low 5 h)) x y z w :=
  ⟨dotPerlin2_eq ft h x y, dotCommon_eq ft h x y z, dotPerlin4_eq ft h x y z w⟩

/-- **C26**, simplex gradients: for every hash with clear sign bit (a "hash31"), every variant is the inner product with one
of the twelve / twenty gradients: number `(h/2)*3 / 2^28`, `(h/4)*5 / 2^27`. -/
theorem C26_simplex (ft : Feat) (h : I32) (hm : h.msb = false) (x y z w : ℝ) :
    (∃ i : Fin 12, (i : Nat) = h.toNat / 2 * 3 / 2 ^ 28 ∧ dotSimplex2 ft h x y = dot2 (simplex2 i) x y) ∧
    (∃ i : Fin 20, (i : Nat) = h.toNat / 4 * 5 / 2 ^ 27 ∧ dotSimplex4 ft h x y z w = dot4 (simplex4 i) x y z w) := by
  have h31 : h.toNat < 2 ^ 31 := by
    rw [msb_eq] at hm
    have := h.isLt
    simp at hm
    omega
  refine ⟨⟨⟨_, simplex2_lt h hm⟩, ?_, dotSimplex2_eq ft h hm x y⟩, ⟨⟨_, simplex4_lt h hm⟩, ?_, dotSimplex4_eq ft h hm x y z w⟩⟩
  · show ((h >>> 1) * 3).toNat / 2 ^ 28 = _
    rw [BitVec.toNat_mul, shr_toNat, show BitVec.toNat (3 : I32) = 3 from rfl, Nat.mod_eq_of_lt (by omega), Nat.pow_one]
  · show ((h >>> 2) * 5).toNat / 2 ^ 27 = _
    rw [BitVec.toNat_mul, shr_toNat, show BitVec.toNat (5 : I32) = 5 from rfl, Nat.mod_eq_of_lt (by omega), show 2 ^ 2 = 4 from rfl]

/-- **C26**, agreement: the five functions return the same value on every instruction set, for every hash the noise
generators compute (`HashPrimes`) and every offset. -/
theorem C26_levels_agree (a b : Feat) (seed : I32) (pos : List I32) (x y z w : ℝ) :
    let h := hashPrimes seed pos
    dotPerlin2 a h x y = dotPerlin2 b h x y ∧ dotCommon a h x y z = dotCommon b h x y z ∧
    dotPerlin4 a h x y z w = dotPerlin4 b h x y z w ∧ dotSimplex2 a h x y = dotSimplex2 b h x y ∧
    dotSimplex4 a h x y z w = dotSimplex4 b h x y z w := by
  intro h
  have hm : h.msb = false := C25_mix_nonneg seed pos
  refine ⟨?_, ?_, ?_, ?_, ?_⟩
  · rw [dotPerlin2_eq, dotPerlin2_eq]
  · rw [dotCommon_eq, dotCommon_eq]
  · rw [dotPerlin4_eq, dotPerlin4_eq]
  · rw [dotSimplex2_eq a h hm, dotSimplex2_eq b h hm]
  · rw [dotSimplex4_eq a h hm, dotSimplex4_eq b h hm]

/-- **C26**, bits: the Perlin/common functions see the low 3 / 4 / 5 bits of the hash only. -/
theorem C26_low_bits (ft : Feat) (h g : I32) (x y z w : ℝ) :
    (h.toNat % 8 = g.toNat % 8 → dotPerlin2 ft h x y = dotPerlin2 ft g x y) ∧
    (h.toNat % 16 = g.toNat % 16 → dotCommon ft h x y z = dotCommon ft g x y z) ∧
    (h.toNat % 32 = g.toNat % 32 → dotPerlin4 ft h x y z w = dotPerlin4 ft g x y z w) := by
  refine ⟨fun e => ?_, fun e => ?_, fun e => ?_⟩
  · rw [dotPerlin2_eq, dotPerlin2_eq, show low 3 h = low 3 g from Fin.ext e]
  · rw [dotCommon_eq, dotCommon_eq, show low 4 h = low 4 g from Fin.ext e]
  · rw [dotPerlin4_eq, dotPerlin4_eq, show low 5 h = low 5 g from Fin.ext e]

/-- **C26**, every gradient is used: each table entry is selected by some hash (for the simplex tables, by a 31 bit one). -/
theorem C26_all_selected (ft : Feat) :
    (∀ i, ∃ h, ∀ x y, dotPerlin2 ft h x y = dot2 (perlin2 i) x y) ∧
    (∀ i, ∃ h, ∀ x y z, dotCommon ft h x y z = dot3 (common3 i) x y z) ∧
    (∀ i, ∃ h, ∀ x y z w, dotPerlin4 ft h x y z w = dot4 (perlin4 i) x y z w) ∧
    (∀ i, ∃ h, h.msb = false ∧ ∀ x y, dotSimplex2 ft h x y = dot2 (simplex2 i) x y) ∧
    (∀ i, ∃ h, h.msb = false ∧ ∀ x y z w, dotSimplex4 ft h x y z w = dot4 (simplex4 i) x y z w) := by
  refine ⟨fun i => ⟨BitVec.ofNat 32 i, fun x y => ?_⟩, fun i => ⟨BitVec.ofNat 32 i, fun x y z => ?_⟩,
    fun i => ⟨BitVec.ofNat 32 i, fun x y z w => ?_⟩, fun i => ?_, fun i => ?_⟩
  · rw [dotPerlin2_eq, show low 3 (BitVec.ofNat 32 i) = i from Fin.ext (by simp [low])]
  · rw [dotCommon_eq, show low 4 (BitVec.ofNat 32 i) = i from Fin.ext (by simp [low])]
  · rw [dotPerlin4_eq, show low 5 (BitVec.ofNat 32 i) = i from Fin.ext (by simp [low])]
  · have key : ∀ i : Fin 12, ∃ h : I32, h.msb = false ∧ ((h >>> 1) * 3).toNat / 2 ^ 28 = i := by
      intro i
      refine ⟨BitVec.ofNat 32 ((i * 2 ^ 28 / 3 + 1) * 2), ?_, ?_⟩ <;> revert i <;> decide
    obtain ⟨h, hm, e⟩ := key i
    exact ⟨h, hm, fun x y => dotSimplex2_aux ft h _ rfl x y i i.isLt e⟩
  · have key : ∀ i : Fin 20, ∃ h : I32, h.msb = false ∧ ((h >>> 2) * 5).toNat / 2 ^ 27 = i := by
      intro i
      refine ⟨BitVec.ofNat 32 ((i * 2 ^ 27 / 5 + 1) * 4), ?_, ?_⟩ <;> revert i <;> decide
    obtain ⟨h, hm, e⟩ := key i
    exact ⟨h, hm, fun x y z w => dotSimplex4_aux ft h x y z w i i.isLt e⟩

/-- **C26**, no direction is longer than another: within a table all gradients have the same squared length. -/
theorem C26_lengths :
    (∀ i, dot2 (perlin2 i) (perlin2 i).1 (perlin2 i).2 = 4 + 2 * √2) ∧
    (∀ i, dot3 (common3 i) (common3 i).1 (common3 i).2.1 (common3 i).2.2 = 2) ∧
    (∀ i, dot4 (perlin4 i) (perlin4 i).1 (perlin4 i).2.1 (perlin4 i).2.2.1 (perlin4 i).2.2.2 = 3) ∧
    (∀ i, dot2 (simplex2 i) (simplex2 i).1 (simplex2 i).2 = 4) ∧
    (∀ i, dot4 (simplex4 i) (simplex4 i).1 (simplex4 i).2.1 (simplex4 i).2.2.1 (simplex4 i).2.2.2 = 2) := by
  have h2 : √(2 : ℝ) * √2 = 2 := Real.mul_self_sqrt (by norm_num)
  have h3 : √(3 : ℝ) * √3 = 3 := Real.mul_self_sqrt (by norm_num)
  have h5 : √(5 : ℝ) * √5 = 5 := Real.mul_self_sqrt (by norm_num)
  have hp : (0 : ℝ) ≤ √5 := Real.sqrt_nonneg 5
  -- k = 1/(√5+1) satisfies 4k² + 2k = 1
  have hk : 4 * ((√5 + 1)⁻¹ * (√5 + 1)⁻¹) + 2 * (√5 + 1)⁻¹ = (1 : ℝ) := by
    have : (√5 + 1 : ℝ) ≠ 0 := by linarith
    field_simp
    nlinarith
  refine ⟨?_, ?_, ?_, ?_, ?_⟩
  · intro i; fin_cases i <;> simp [perlin2, dot2] <;> linear_combination h2
  · intro i; fin_cases i <;> simp [common3, dot3] <;> norm_num
  · intro i
    have hs : ∀ a b, sgn a b * sgn a b = 1 := by intro a b; unfold sgn; split <;> norm_num
    unfold perlin4 dot4
    have : (i : Nat) / 8 < 4 := by omega
    obtain ⟨q, hq⟩ : ∃ q, (i : Nat) / 8 = q := ⟨_, rfl⟩
    simp only [hq]
    rw [hq] at this
    interval_cases q <;> simp [hs] <;> norm_num
  · intro i; fin_cases i <;> simp [simplex2, dot2] <;> first | linear_combination h3 | norm_num
  · intro i; fin_cases i <;> simp [simplex4, dot4] <;> first | linear_combination hk | norm_num

/-- Non-vacuity: `HashPrimes` produces 31 bit hashes, e.g. for seed 1337 at the lattice point (1, 2). -/
example : (hashPrimes 1337 (primed [1, 2])).msb = false ∧ hashPrimes 1337 (primed [1, 2]) ≠ 0 := by decide

/-- The "hash31" hypothesis of `C26_simplex` is needed: for a hash with the sign bit set the 2D selector leaves the table and
the AVX512 and scalar variants differ. -/
theorem C26_hash31_needed : ∃ h : I32, h.msb = true ∧
    dotSimplex2 ⟨true, true, true, true, true⟩ h 1 0 ≠ dotSimplex2 ⟨true, true, false, false, false⟩ h 1 0 := by
  refine ⟨0x80000000, by decide, ?_⟩
  have e1 : dotSimplex2 ⟨true, true, true, true, true⟩ 0x80000000 1 0 = 0 := by
    simp [dotSimplex2, perm16, fma, root3]
  have e2 : dotSimplex2 ⟨true, true, false, false, false⟩ 0x80000000 1 0 ≠ 0 := by
    simp [dotSimplex2, selectHighBit, xorSign, invMaskedAdd, BitVec.msb_eq_decide]
  rw [e1]
  exact e2.symm

end FastNoise.Gradient
