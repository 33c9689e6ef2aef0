import Verif.SimplexLemmas
import Mathlib.GroupTheory.Perm.Basic
/-!
# The code of `Simplex::Gen` sums the contributions of the corners of one simplex
-/
namespace FastNoise.Simplex
open FastNoise.Hash FastNoise.Num FastNoise.Gradient FastNoise.Lattice

noncomputable section

/-- The integer base and the offset in the unit cube. -/
def base {n : Nat} (p : Fin n → ℝ) : Fin n → ℤ := fun i => ⌊skewed p i⌋
@[inherit_doc base] def frac {n : Nat} (p : Fin n → ℝ) : Fin n → ℝ := fun i => skewed p i - (⌊skewed p i⌋ : ℤ)

/-- What is proved about each overload of `Simplex::Gen`. -/
def IsSimplexSum {n : Nat} (seed : I32) (r2 : ℝ) (p : Fin n → ℝ) (value : Ramp → ℝ) : Prop :=
  ∃ rank : Equiv.Perm (Fin n), (∀ i j, rank i < rank j → frac p j ≤ frac p i) ∧
    ∀ ramp, value ramp = ∑ k : Fin (n + 1), contribution ramp seed r2 p (corner (base p) rank k)

theorem ofInt_succ_mul (a : ℤ) (q : I32) : BitVec.ofInt 32 (a + 1) * q = BitVec.ofInt 32 a * q + q := by
  rw [BitVec.ofInt_add, BitVec.add_mul]; simp

theorem skew2 (p : Fin 2 → ℝ) : p 0 + kSkew 2 * (p 0 + p 1) = skewed p 0 ∧ p 1 + kSkew 2 * (p 0 + p 1) = skewed p 1 := by
  rw [kSkew2]; simp [skewed, Fin.sum_univ_two]

theorem skew3 (p : Fin 3 → ℝ) : ∀ i, p i + kSkew 3 * (p 0 + p 1 + p 2) = skewed p i := by
  rw [kSkew3]; simp [skewed, Fin.sum_univ_three]

theorem skew4 (p : Fin 4 → ℝ) : ∀ i, p i + kSkew 4 * (p 0 + p 1 + p 2 + p 3) = skewed p i := by
  rw [kSkew4]; simp [skewed, Fin.sum_univ_four]

theorem block2 (ramp : Ramp) (seed : I32) (r2 : ℝ) (p : Fin 2 → ℝ) (v : Fin 2 → ℤ) (f dx dy : ℝ) (hx hy : I32) (u : Fin 2 → ℝ)
    (hu : ∀ i, skewed p i - v i = u i) (hf : f = r2 - (u 0 ^ 2 + u 1 ^ 2 - (u 0 + u 1) ^ 2 / 3))
    (hdx : dx = u 0 + kUnskew 2 * (u 0 + u 1)) (hdy : dy = u 1 + kUnskew 2 * (u 0 + u 1))
    (hhx : hx = BitVec.ofInt 32 (v 0) * primeX) (hhy : hy = BitVec.ofInt 32 (v 1) * primeY) :
    ramp (hashPrimes seed [hx, hy]) [dx, dy] * pow4 (max f 0) = contribution ramp seed r2 p v := by
  rw [contribution_eq, term2]; simp only [hu]
  subst hf hdx hdy hhx hhy; ring

theorem sq_identity2 (a b : ℝ) : (a + kUnskew 2 * (a + b)) ^ 2 + (b + kUnskew 2 * (a + b)) ^ 2 = a ^ 2 + b ^ 2 - (a + b) ^ 2 / 3 := by
  linear_combination 2 * (a + b) ^ 2 * kUnskew2_sq

theorem simplex2_eq (seed : I32) (p : Fin 2 → ℝ) (h : ∀ i, InRange (skewed p i)) : IsSimplexSum seed (1 / 2) p (fun ramp => simplex2 ramp seed (p 0) (p 1)) := by
  have hf := kUnskew2_falloff
  unfold IsSimplexSum
  refine ⟨if frac p 0 ≥ frac p 1 then 1 else Equiv.swap 0 1, ?_, ?_⟩
  · intro i j
    split_ifs with c
    · fin_cases i <;> fin_cases j <;> simp <;> linarith
    · fin_cases i <;> fin_cases j <;> simp <;> linarith
  · intro ramp
    obtain ⟨u0, e0⟩ : ∃ u0, frac p 0 = u0 := ⟨_, rfl⟩
    obtain ⟨u1, e1⟩ : ∃ u1, frac p 1 = u1 := ⟨_, rfl⟩
    have e0' : skewed p 0 - (⌊skewed p 0⌋ : ℤ) = u0 := e0
    have e1' : skewed p 1 - (⌊skewed p 1⌋ : ℤ) = u1 := e1
    simp only [simplex2, (skew2 p).1, (skew2 p).2, convertI32_floor (h _), e0, e1, e0', e1', Num.fma]
    rw [Fin.sum_univ_three, add_assoc]
    have z0 : skewed p 0 = u0 + (⌊skewed p 0⌋ : ℤ) := by linarith
    have z1 : skewed p 1 = u1 + (⌊skewed p 1⌋ : ℤ) := by linarith
    refine congrArg₂ (· + ·) (block2 ramp seed _ p _ _ _ _ _ _ ![u0, u1] ?_ ?_ ?_ ?_ ?_ ?_)
      (congrArg₂ (· + ·) (block2 ramp seed _ p _ _ _ _ _ _ (if u0 ≥ u1 then ![u0 - 1, u1] else ![u0, u1 - 1]) ?_ ?_ ?_ ?_ ?_ ?_)
        (block2 ramp seed _ p _ _ _ _ _ _ ![u0 - 1, u1 - 1] ?_ ?_ ?_ ?_ ?_ ?_))
    · intro i; fin_cases i <;> simp [corner, base, e0', e1']
    · have := sq_identity2 u0 u1; simp [fnma]; linarith
    · simp
    · simp
    · simp [corner, base]
    · simp [corner, base]
    · by_cases c : u0 ≥ u1 <;> intro i <;> fin_cases i <;> simp [corner, base, c, e0', e1'] <;> linarith
    · by_cases c : u0 ≥ u1
      · have := sq_identity2 (u0 - 1) u1; simp [fnma, c, maskedInc]; linarith
      · have := sq_identity2 u0 (u1 - 1); simp [fnma, c, maskedInc]; linarith
    · by_cases c : u0 ≥ u1 <;> simp [c, maskedInc] <;> ring
    · by_cases c : u0 ≥ u1 <;> simp [c, maskedInc] <;> ring
    · by_cases c : u0 ≥ u1 <;> simp [c, maskedAddI, invMaskedAddI, corner, base, ofInt_succ_mul]
    · by_cases c : u0 ≥ u1 <;> simp [c, maskedAddI, invMaskedAddI, corner, base, ofInt_succ_mul]
    · by_cases c : u0 ≥ u1 <;> intro i <;> fin_cases i <;> simp [corner, base, c, e0', e1'] <;> linarith
    · simp only [fnma, Matrix.cons_val_zero, Matrix.cons_val_one]
      linear_combination -sq_identity2 u0 u1 + (u0 + u1) * hf
    · simp; ring
    · simp; ring
    · by_cases c : u0 ≥ u1 <;> simp [c, corner, base, ofInt_succ_mul]
    · by_cases c : u0 ≥ u1 <;> simp [c, corner, base, ofInt_succ_mul]

/-- A mask as a number. -/
def bit (b : Bool) : ℤ := if b then 1 else 0

theorem bit_cast (b : Bool) : ((bit b : ℤ) : ℝ) = if b then 1 else 0 := by cases b <;> simp [bit]

theorem ofInt_bit_mul (a : ℤ) (b : Bool) (q : I32) : BitVec.ofInt 32 (a + bit b) * q = maskedAddI b (BitVec.ofInt 32 a * q) q := by
  cases b
  · simp [bit, maskedAddI]
  · simp [bit, maskedAddI, ofInt_succ_mul]

theorem skewed_sub {n : Nat} (p : Fin n → ℝ) (c : Fin n → ℤ) (i : Fin n) : skewed p i - ((base p i + c i : ℤ) : ℝ) = frac p i - c i := by
  simp only [base, frac]; push_cast; ring

/-! ## Three dimensions -/

theorem block3 (ramp : Ramp) (seed : I32) (r2 : ℝ) (p : Fin 3 → ℝ) (c : Fin 3 → ℤ) (f dx dy dz : ℝ) (hx hy hz : I32) (a b e s : ℝ)
    (ha : frac p 0 - c 0 = a) (hb : frac p 1 - c 1 = b) (he : frac p 2 - c 2 = e) (hs : s = a + b + e)
    (hf : f = r2 - (a ^ 2 + b ^ 2 + e ^ 2 - s ^ 2 / 4))
    (hdx : dx = a - 1 / 2 * s) (hdy : dy = b - 1 / 2 * s) (hdz : dz = e - 1 / 2 * s)
    (hhx : hx = BitVec.ofInt 32 (base p 0 + c 0) * primeX) (hhy : hy = BitVec.ofInt 32 (base p 1 + c 1) * primeY)
    (hhz : hz = BitVec.ofInt 32 (base p 2 + c 2) * primeZ) :
    ramp (hashPrimes seed [hx, hy, hz]) [dx, dy, dz] * pow4 (max f 0) = contribution ramp seed r2 p (fun i => base p i + c i) := by
  rw [contribution_eq, term3]; simp only [skewed_sub, ha, hb, he, kUnskew3]
  subst hs hf hdx hdy hdz hhx hhy hhz
  rw [mul_comm]; congr 2 <;> ring

theorem simplex3_sum (ramp : Ramp) (seed : I32) (p : Fin 3 → ℝ) (h : ∀ i, InRange (skewed p i)) (xy yz xz : Bool)
    (hxy : xy = decide (frac p 0 ≥ frac p 1)) (hyz : yz = decide (frac p 1 ≥ frac p 2)) (hxz : xz = decide (frac p 0 ≥ frac p 2))
    (s1 : bit (xy && xz) + bit (yz && !xy) + bit (!(xz || yz)) = 1)
    (s2 : bit (xy || xz) + bit (!(xy && !yz)) + bit (!(xz && yz)) = 2) :
    simplex3 ramp seed (p 0) (p 1) (p 2) =
      contribution ramp seed 0.6 p (fun i => base p i + 0) +
      contribution ramp seed 0.6 p (fun i => base p i + ![bit (xy && xz), bit (yz && !xy), bit (!(xz || yz))] i) +
      contribution ramp seed 0.6 p (fun i => base p i + ![bit (xy || xz), bit (!(xy && !yz)), bit (!(xz && yz))] i) +
      contribution ramp seed 0.6 p (fun i => base p i + 1) := by
  simp only [simplex3, skew3, convertI32_floor (h _), Num.fma]
  have s1' : ((bit (xy && xz) : ℤ) : ℝ) + (bit (yz && !xy) : ℤ) + (bit (!(xz || yz)) : ℤ) = 1 := by exact_mod_cast s1
  have s2' : ((bit (xy || xz) : ℤ) : ℝ) + (bit (!(xy && !yz)) : ℤ) + (bit (!(xz && yz)) : ℤ) = 2 := by exact_mod_cast s2
  obtain ⟨u0, e0⟩ : ∃ u0, frac p 0 = u0 := ⟨_, rfl⟩
  obtain ⟨u1, e1⟩ : ∃ u1, frac p 1 = u1 := ⟨_, rfl⟩
  obtain ⟨u2, e2⟩ : ∃ u2, frac p 2 = u2 := ⟨_, rfl⟩
  have b0 : ⌊skewed p 0⌋ = base p 0 := rfl
  have b1 : ⌊skewed p 1⌋ = base p 1 := rfl
  have b2 : ⌊skewed p 2⌋ = base p 2 := rfl
  have f0 : skewed p 0 - (base p 0 : ℤ) = u0 := e0
  have f1 : skewed p 1 - (base p 1 : ℤ) = u1 := e1
  have f2 : skewed p 2 - (base p 2 : ℤ) = u2 := e2
  rw [e0, e1] at hxy
  rw [e1, e2] at hyz
  rw [e0, e2] at hxz
  simp only [b0, b1, b2, f0, f1, f2]
  rw [← hxy, ← hyz, ← hxz]
  have m1 : ∀ (b : Bool) (x : ℝ), maskedSub b x 1 = x - (bit b : ℤ) := by intro b x; cases b <;> simp [maskedSub, bit]
  have m2 : ∀ (b : Bool) (x : ℝ), invMaskedSub b x 1 = x - (bit (!b) : ℤ) := by intro b x; cases b <;> simp [invMaskedSub, bit]
  have m3 : ∀ (b : Bool) (x : ℝ), maskedInc b x = x + 1 - (bit (!b) : ℤ) := by intro b x; cases b <;> simp [maskedInc, bit]
  have m4 : ∀ (b : Bool) (x y : I32), invMaskedAddI b x y = maskedAddI (!b) x y := by intro b x y; cases b <;> simp [invMaskedAddI, maskedAddI]
  simp only [m1, m2, m3, m4, Bool.not_not, kUnskew3]
  rw [show ∀ a b c d : ℝ, a + b + c + d = d + (c + (b + a)) from fun a b c d => by ring]
  refine congrArg₂ (· + ·) (block3 ramp seed _ p (fun _ => 1) _ _ _ _ _ _ _ _ _ _ (u0 + u1 + u2 - 3) rfl rfl rfl ?_ ?_ ?_ ?_ ?_ ?_ ?_ ?_)
    (congrArg₂ (· + ·) (block3 ramp seed _ p ![_, _, _] _ _ _ _ _ _ _ _ _ _ (u0 + u1 + u2 - 2) rfl rfl rfl ?_ ?_ ?_ ?_ ?_ ?_ ?_ ?_)
      (congrArg₂ (· + ·) (block3 ramp seed _ p ![_, _, _] _ _ _ _ _ _ _ _ _ _ (u0 + u1 + u2 - 1) rfl rfl rfl ?_ ?_ ?_ ?_ ?_ ?_ ?_ ?_)
        (block3 ramp seed _ p (fun _ => 0) _ _ _ _ _ _ _ _ _ _ (u0 + u1 + u2) rfl rfl rfl ?_ ?_ ?_ ?_ ?_ ?_ ?_ ?_)))
  all_goals try simp only [Matrix.cons_val_zero, Matrix.cons_val_one, Matrix.cons_val, ofInt_bit_mul, e0, e1, e2, ofInt_succ_mul, add_zero, fnma]
  all_goals try (push_cast; ring1)
  all_goals try (push_cast; linarith)
  · linear_combination -(u0 + u1 + u2 - 2) * s2'
  · linear_combination -(u0 + u1 + u2 - 1) * s1'

/-- A rank function as a permutation. -/
def permOf {n : Nat} (f : Fin n → Fin n) (h : Function.Injective f) : Equiv.Perm (Fin n) := Equiv.ofBijective f (Finite.injective_iff_bijective.mp h)

theorem permOf_apply {n : Nat} (f : Fin n → Fin n) (h : Function.Injective f) (i : Fin n) : permOf f h i = f i := rfl

theorem simplex3_eq (seed : I32) (p : Fin 3 → ℝ) (h : ∀ i, InRange (skewed p i)) :
    IsSimplexSum seed 0.6 p (fun ramp => simplex3 ramp seed (p 0) (p 1) (p 2)) := by
  have key : ∀ (xy yz xz : Bool), xy = decide (frac p 0 ≥ frac p 1) → yz = decide (frac p 1 ≥ frac p 2) → xz = decide (frac p 0 ≥ frac p 2) →
      ∀ (f : Fin 3 → Fin 3) (hf : Function.Injective f), (∀ i j, f i < f j → frac p j ≤ frac p i) →
      (∀ i, (bif (f i : Nat) < 1 then (1 : ℤ) else 0) = ![bit (xy && xz), bit (yz && !xy), bit (!(xz || yz))] i) →
      (∀ i, (bif (f i : Nat) < 2 then (1 : ℤ) else 0) = ![bit (xy || xz), bit (!(xy && !yz)), bit (!(xz && yz))] i) →
      bit (xy && xz) + bit (yz && !xy) + bit (!(xz || yz)) = 1 →
      bit (xy || xz) + bit (!(xy && !yz)) + bit (!(xz && yz)) = 2 → IsSimplexSum seed 0.6 p (fun ramp => simplex3 ramp seed (p 0) (p 1) (p 2)) := by
    intro xy yz xz hxy hyz hxz f hf hs h1 h2 s1 s2
    refine ⟨permOf f hf, hs, fun ramp => ?_⟩
    simp only
    rw [simplex3_sum ramp seed p h xy yz xz hxy hyz hxz s1 s2, Fin.sum_univ_four]
    refine congrArg₂ (· + ·) (congrArg₂ (· + ·) (congrArg₂ (· + ·) (congrArg _ ?_) (congrArg _ ?_)) (congrArg _ ?_)) (congrArg _ ?_)
    · funext i; simp [corner]
    · funext i; rw [← h1 i, cond_eq_ite]; simp [corner, permOf_apply]
    · funext i; rw [← h2 i, cond_eq_ite]; simp [corner, permOf_apply]
    · funext i; simp [corner]
  by_cases c1 : frac p 0 ≥ frac p 1 <;> by_cases c2 : frac p 1 ≥ frac p 2 <;> by_cases c3 : frac p 0 ≥ frac p 2
  · refine key true true true (by simp [c1]) (by simp [c2]) (by simp [c3]) ![0, 1, 2] (by decide) ?_ (by decide) (by decide) (by decide) (by decide)
    intro i j; fin_cases i <;> fin_cases j <;> simp <;> linarith
  · exfalso; linarith
  · refine key true false true (by simp [c1]) (by simp [c2]) (by simp [c3]) ![0, 2, 1] (by decide) ?_ (by decide) (by decide) (by decide) (by decide)
    intro i j; fin_cases i <;> fin_cases j <;> simp <;> linarith
  · refine key true false false (by simp [c1]) (by simp [c2]) (by simp [c3]) ![1, 2, 0] (by decide) ?_ (by decide) (by decide) (by decide) (by decide)
    intro i j; fin_cases i <;> fin_cases j <;> simp <;> linarith
  · refine key false true true (by simp [c1]) (by simp [c2]) (by simp [c3]) ![1, 0, 2] (by decide) ?_ (by decide) (by decide) (by decide) (by decide)
    intro i j; fin_cases i <;> fin_cases j <;> simp <;> linarith
  · refine key false true false (by simp [c1]) (by simp [c2]) (by simp [c3]) ![2, 0, 1] (by decide) ?_ (by decide) (by decide) (by decide) (by decide)
    intro i j; fin_cases i <;> fin_cases j <;> simp <;> linarith
  · exfalso; linarith
  · refine key false false false (by simp [c1]) (by simp [c2]) (by simp [c3]) ![2, 1, 0] (by decide) ?_ (by decide) (by decide) (by decide) (by decide)
    intro i j; fin_cases i <;> fin_cases j <;> simp <;> linarith

/-! ## Four dimensions -/

theorem sq_identity4 (a b c d s : ℝ) (hs : s = a + b + c + d) :
    (a + kUnskew 4 * s) ^ 2 + (b + kUnskew 4 * s) ^ 2 + (c + kUnskew 4 * s) ^ 2 + (d + kUnskew 4 * s) ^ 2 = a ^ 2 + b ^ 2 + c ^ 2 + d ^ 2 - s ^ 2 / 5 := by
  subst hs
  linear_combination 4 * (a + b + c + d) ^ 2 * kUnskew4_sq

theorem block4 (ramp : Ramp) (seed : I32) (r2 : ℝ) (p : Fin 4 → ℝ) (c : Fin 4 → ℤ) (f dx dy dz dw : ℝ) (hx hy hz hw : I32) (s : ℝ)
    (hs : s = frac p 0 + frac p 1 + frac p 2 + frac p 3 - (c 0 + c 1 + c 2 + c 3 : ℤ))
    (hf : f = r2 - (dx ^ 2 + dy ^ 2 + dz ^ 2 + dw ^ 2))
    (hdx : dx = frac p 0 - c 0 + kUnskew 4 * s) (hdy : dy = frac p 1 - c 1 + kUnskew 4 * s) (hdz : dz = frac p 2 - c 2 + kUnskew 4 * s)
    (hdw : dw = frac p 3 - c 3 + kUnskew 4 * s)
    (hhx : hx = BitVec.ofInt 32 (base p 0 + c 0) * primeX) (hhy : hy = BitVec.ofInt 32 (base p 1 + c 1) * primeY)
    (hhz : hz = BitVec.ofInt 32 (base p 2 + c 2) * primeZ) (hhw : hw = BitVec.ofInt 32 (base p 3 + c 3) * primeW) :
    ramp (hashPrimes seed [hx, hy, hz, hw]) [dx, dy, dz, dw] * pow4 (max f 0) = contribution ramp seed r2 p (fun i => base p i + c i) := by
  have hs' : frac p 0 - c 0 + (frac p 1 - c 1) + (frac p 2 - c 2) + (frac p 3 - c 3) = s := by rw [hs]; push_cast; ring
  rw [contribution_eq, term4]; simp only [skewed_sub, hs']
  rw [← sq_identity4 _ _ _ _ s hs'.symm, ← hdx, ← hdy, ← hdz, ← hdw, ← hhx, ← hhy, ← hhz, ← hhw, ← hf, mul_comm]

theorem simplex4_sum (ramp : Ramp) (seed : I32) (p : Fin 4 → ℝ) (h : ∀ i, InRange (skewed p i)) (rk : Nat × Nat × Nat × Nat)
    (hrk : ranks4 (frac p 0 + kUnskew 4 * (frac p 0 + frac p 1 + frac p 2 + frac p 3)) (frac p 1 + kUnskew 4 * (frac p 0 + frac p 1 + frac p 2 + frac p 3))
      (frac p 2 + kUnskew 4 * (frac p 0 + frac p 1 + frac p 2 + frac p 3)) (frac p 3 + kUnskew 4 * (frac p 0 + frac p 1 + frac p 2 + frac p 3)) = rk)
    (hs : ∀ m : Nat, m < 3 → bit (rk.1 > m) + bit (rk.2.1 > m) + bit (rk.2.2.1 > m) + bit (rk.2.2.2 > m) = 3 - m) :
    simplex4 ramp seed (p 0) (p 1) (p 2) (p 3) =
      contribution ramp seed 0.6 p (fun i => base p i + 0) +
      contribution ramp seed 0.6 p (fun i => base p i + ![bit (rk.1 > 2), bit (rk.2.1 > 2), bit (rk.2.2.1 > 2), bit (rk.2.2.2 > 2)] i) +
      contribution ramp seed 0.6 p (fun i => base p i + ![bit (rk.1 > 1), bit (rk.2.1 > 1), bit (rk.2.2.1 > 1), bit (rk.2.2.2 > 1)] i) +
      contribution ramp seed 0.6 p (fun i => base p i + ![bit (rk.1 > 0), bit (rk.2.1 > 0), bit (rk.2.2.1 > 0), bit (rk.2.2.2 > 0)] i) +
      contribution ramp seed 0.6 p (fun i => base p i + 1) := by
  have s1 := hs 2 (by norm_num)
  have s2 := hs 1 (by norm_num)
  have s3 := hs 0 (by norm_num)
  obtain ⟨u0, e0⟩ : ∃ u0, frac p 0 = u0 := ⟨_, rfl⟩
  obtain ⟨u1, e1⟩ : ∃ u1, frac p 1 = u1 := ⟨_, rfl⟩
  obtain ⟨u2, e2⟩ : ∃ u2, frac p 2 = u2 := ⟨_, rfl⟩
  obtain ⟨u3, e3⟩ : ∃ u3, frac p 3 = u3 := ⟨_, rfl⟩
  have b0 : ⌊skewed p 0⌋ = base p 0 := rfl
  have b1 : ⌊skewed p 1⌋ = base p 1 := rfl
  have b2 : ⌊skewed p 2⌋ = base p 2 := rfl
  have b3 : ⌊skewed p 3⌋ = base p 3 := rfl
  have f0 : skewed p 0 - (base p 0 : ℤ) = u0 := e0
  have f1 : skewed p 1 - (base p 1 : ℤ) = u1 := e1
  have f2 : skewed p 2 - (base p 2 : ℤ) = u2 := e2
  have f3 : skewed p 3 - (base p 3 : ℤ) = u3 := e3
  have m1 : ∀ (b : Bool) (x : ℝ), maskedSub b x 1 = x - (bit b : ℤ) := by intro b x; cases b <;> simp [maskedSub, bit]
  rw [e0, e1, e2, e3] at hrk
  have hc : ∀ i, convertI32 ((base p i : ℤ) : ℝ) = BitVec.ofInt 32 (base p i) := fun i => convertI32_floor (h i)
  simp only [simplex4, skew4, hc, Num.fma, b0, b1, b2, b3, f0, f1, f2, f3, hrk, m1]
  rw [show ∀ a b c d e : ℝ, a + b + c + d + e = a + (b + (c + (d + e))) from fun a b c d e => by ring]
  have hf4 := kUnskew4_falloff
  have sq0 := sq_identity4 u0 u1 u2 u3 _ rfl
  have sq1 := sq_identity4 (u0 - 1) (u1 - 1) (u2 - 1) (u3 - 1) (u0 + u1 + u2 + u3 - 4) (by ring)
  refine congrArg₂ (· + ·) (block4 ramp seed _ p (fun _ => 0) _ _ _ _ _ _ _ _ _ (u0 + u1 + u2 + u3) ?_ ?_ ?_ ?_ ?_ ?_ ?_ ?_ ?_ ?_)
    (congrArg₂ (· + ·) (block4 ramp seed _ p ![_, _, _, _] _ _ _ _ _ _ _ _ _ (u0 + u1 + u2 + u3 - 1) ?_ ?_ ?_ ?_ ?_ ?_ ?_ ?_ ?_ ?_)
      (congrArg₂ (· + ·) (block4 ramp seed _ p ![_, _, _, _] _ _ _ _ _ _ _ _ _ (u0 + u1 + u2 + u3 - 2) ?_ ?_ ?_ ?_ ?_ ?_ ?_ ?_ ?_ ?_)
        (congrArg₂ (· + ·) (block4 ramp seed _ p ![_, _, _, _] _ _ _ _ _ _ _ _ _ (u0 + u1 + u2 + u3 - 3) ?_ ?_ ?_ ?_ ?_ ?_ ?_ ?_ ?_ ?_)
          (block4 ramp seed _ p (fun _ => 1) _ _ _ _ _ _ _ _ _ (u0 + u1 + u2 + u3 - 4) ?_ ?_ ?_ ?_ ?_ ?_ ?_ ?_ ?_ ?_))))
  all_goals try simp only [Matrix.cons_val_zero, Matrix.cons_val_one, Matrix.cons_val, ofInt_bit_mul, e0, e1, e2, e3, ofInt_succ_mul, add_zero, fnma, s1, s2, s3]
  all_goals try (push_cast; ring1)
  rw [show kUnskew 4 * (u0 + u1 + u2 + u3) * (-4 * (√5 + 3) / (√5 + 5)) = 2 / 5 * (u0 + u1 + u2 + u3) by rw [← hf4]; ring]
  linear_combination sq1 - sq0

/-- The ranks of the code are a permutation of the axes, also if coordinates are equal. -/
theorem ranks4_spec (a b c d : ℝ) : ∃ f : Fin 4 → Fin 4, Function.Injective f ∧
    ranks4 a b c d = (3 - (f 0 : Nat), 3 - (f 1 : Nat), 3 - (f 2 : Nat), 3 - (f 3 : Nat)) ∧ (∀ i j, f i < f j → ![a, b, c, d] j ≤ ![a, b, c, d] i) ∧
    ∀ m : Nat, m < 3 → bit (3 - (f 0 : Nat) > m) + bit (3 - (f 1 : Nat) > m) + bit (3 - (f 2 : Nat) > m) + bit (3 - (f 3 : Nat) > m) = 3 - m := by
  by_cases h1 : a ≥ b <;> by_cases h2 : a ≥ c <;> by_cases h3 : a ≥ d <;> by_cases h4 : b ≥ c <;> by_cases h5 : b ≥ d <;> by_cases h6 : c ≥ d
  all_goals first
    | (exfalso; linarith)
    | (obtain ⟨rk, hrk⟩ : ∃ rk, ranks4 a b c d = rk := ⟨_, rfl⟩
       have e := hrk
       simp only [ranks4, h1, h2, h3, h4, h5, h6, decide_true, decide_false, Bool.not_true, Bool.not_false, incRank, if_true, Bool.false_eq_true, if_false] at e
       simp only [hrk, ← e]
       refine ⟨![Fin.ofNat 4 (3 - rk.1), Fin.ofNat 4 (3 - rk.2.1), Fin.ofNat 4 (3 - rk.2.2.1), Fin.ofNat 4 (3 - rk.2.2.2)], ?_, ?_, ?_, ?_⟩ <;> rw [← e]
       · decide
       · decide
       · intro i j
         fin_cases i <;> fin_cases j <;> first
           | (intro hlt; exact absurd hlt (by decide))
           | (intro _; show (_ : ℝ) ≤ _; simp only [Matrix.cons_val_zero, Matrix.cons_val_one, Matrix.cons_val, Fin.mk_zero', Fin.zero_eta, Fin.mk_one, Fin.reduceFinMk, Fin.isValue]; linarith)
       · decide)

theorem simplex4_eq (seed : I32) (p : Fin 4 → ℝ) (h : ∀ i, InRange (skewed p i)) :
    IsSimplexSum seed 0.6 p (fun ramp => simplex4 ramp seed (p 0) (p 1) (p 2) (p 3)) := by
  obtain ⟨f, hf, hrk, hs, hc⟩ := ranks4_spec (frac p 0 + kUnskew 4 * (frac p 0 + frac p 1 + frac p 2 + frac p 3))
    (frac p 1 + kUnskew 4 * (frac p 0 + frac p 1 + frac p 2 + frac p 3)) (frac p 2 + kUnskew 4 * (frac p 0 + frac p 1 + frac p 2 + frac p 3))
    (frac p 3 + kUnskew 4 * (frac p 0 + frac p 1 + frac p 2 + frac p 3))
  refine ⟨permOf f hf, ?_, ?_⟩
  · intro i j hij
    have := hs i j hij
    fin_cases i <;> fin_cases j <;> first | simpa using this | simp
  · intro ramp
    simp only
    rw [simplex4_sum ramp seed p h _ hrk hc, Fin.sum_univ_five]
    refine congrArg₂ (· + ·) (congrArg₂ (· + ·) (congrArg₂ (· + ·) (congrArg₂ (· + ·) (congrArg _ ?_) (congrArg _ ?_)) (congrArg _ ?_)) (congrArg _ ?_)) (congrArg _ ?_)
    · funext i; simp [corner]
    · funext i
      fin_cases i <;> simp only [corner, permOf_apply, bit, decide_eq_true_eq] <;> congr 1 <;> refine if_congr ?_ rfl rfl <;> simp <;> omega
    · funext i
      fin_cases i <;> simp only [corner, permOf_apply, bit, decide_eq_true_eq] <;> congr 1 <;> refine if_congr ?_ rfl rfl <;> simp <;> omega
    · funext i
      fin_cases i <;> simp only [corner, permOf_apply, bit, decide_eq_true_eq] <;> congr 1 <;> refine if_congr ?_ rfl rfl <;> simp <;> omega
    · funext i; simp [corner]

end
end FastNoise.Simplex
