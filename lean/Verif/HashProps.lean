import Verif.Hash
/-!
# C25: lattice hashing loses no information before mixing
-/
namespace FastNoise.Hash

/-! ## Lemmas -/

theorem odd_mul_inj {p q : I32} (h : p * q = 1) {a b : I32} (e : a * p = b * p) : a = b := by
  have : a * p * q = b * p * q := by rw [e]
  have h1 : ∀ x : I32, x * 1 = x := BitVec.mul_one
  rwa [BitVec.mul_assoc, BitVec.mul_assoc, h, h1, h1] at this

/-- Every prime of the lookup table is invertible modulo 2^32. -/
theorem primes_invertible : ∀ p ∈ primes, ∃ q : I32, p * q = 1 := by
  intro p hp
  simp only [primes, List.mem_cons, List.not_mem_nil, or_false] at hp
  rcases hp with rfl | rfl | rfl | rfl
  · exact ⟨0xf3ea6bf7, by decide⟩
  · exact ⟨0x68e729b9, by decide⟩
  · exact ⟨0x600546af, by decide⟩
  · exact ⟨0xea22a7c9, by decide⟩

theorem mulA_invertible : ∃ q : I32, mulA * q = 1 := ⟨0x988d1e5d, by decide⟩

theorem xor_left_inj {a b c : I32} (h : a ^^^ b = a ^^^ c) : b = c := by
  have : a ^^^ (a ^^^ b) = a ^^^ (a ^^^ c) := by rw [h]
  simpa [← BitVec.xor_assoc] using this

theorem xor_right_inj {a b c : I32} (h : b ^^^ a = c ^^^ a) : b = c := by
  rw [BitVec.xor_comm b, BitVec.xor_comm c] at h; exact xor_left_inj h

theorem foldr_set_inj (ps : List I32) (hp : ∀ p ∈ ps, ∃ q : I32, p * q = 1) (c : List I32) (i : Nat)
    (hi : i < c.length) (hl : c.length ≤ ps.length) (a b : I32)
    (h : (List.zipWith (· * ·) (c.set i a) ps).foldr (· ^^^ ·) 0 = (List.zipWith (· * ·) (c.set i b) ps).foldr (· ^^^ ·) 0) : a = b := by
  induction c generalizing i ps with
  | nil => simp at hi
  | cons x c ih =>
    cases ps with
    | nil => simp at hl
    | cons p ps =>
      cases i with
      | zero =>
        simp only [List.set_cons_zero, List.zipWith_cons_cons, List.foldr_cons] at h
        obtain ⟨q, hq⟩ := hp p (by simp)
        exact odd_mul_inj hq (xor_right_inj h)
      | succ i =>
        simp only [List.set_cons_succ, List.zipWith_cons_cons, List.foldr_cons] at h
        exact ih ps (fun p hp' => hp p (by simp [hp'])) i (by simpa using hi) (by simpa using hl) (xor_left_inj h)

theorem hashPrimes_eq (s : I32) (l : List I32) : hashPrimes s l = (hashPrimesHB s l).sshiftRight 15 ^^^ hashPrimesHB s l := rfl

/-- If arithmetic shift by 15 fixes a word, all its bits are equal to the sign bit. -/
theorem sar_fix (d : I32) (h : d.sshiftRight 15 = d) (i : Nat) (hi : i < 32) : d.getLsbD i = d.getLsbD 31 := by
  have hb : ∀ j, j < 32 → d.getLsbD j = if 15 + j < 32 then d.getLsbD (15 + j) else d.msb := by
    intro j hj
    have := congrArg (fun x => x.getLsbD j) h
    simp only [BitVec.getLsbD_sshiftRight] at this
    rw [← this]
    simp; intro hj'; omega
  have hm : d.msb = d.getLsbD 31 := by simp [BitVec.msb_eq_getLsbD_last]
  have h1 : ∀ j, 17 ≤ j → j < 32 → d.getLsbD j = d.getLsbD 31 := by
    intro j h17 hj
    rw [hb j hj, if_neg (by omega), hm]
  have h2 : ∀ j, 2 ≤ j → j < 32 → d.getLsbD j = d.getLsbD 31 := by
    intro j h17 hj
    by_cases c : 17 ≤ j
    · exact h1 j c hj
    · rw [hb j hj, if_pos (by omega)]; exact h1 _ (by omega) (by omega)
  by_cases c : 2 ≤ i
  · exact h2 i c hi
  · rw [hb i hi, if_pos (by omega)]; exact h2 _ (by omega) (by omega)

theorem sar_collide (h h' : I32) : h.sshiftRight 15 ^^^ h = h'.sshiftRight 15 ^^^ h' ↔ h = h' ∨ h = ~~~h' := by
  constructor
  · intro e
    have e' : (h ^^^ h').sshiftRight 15 = h ^^^ h' := by
      rw [BitVec.sshiftRight_xor_distrib]
      have : (h.sshiftRight 15 ^^^ h) ^^^ (h ^^^ h'.sshiftRight 15) = (h'.sshiftRight 15 ^^^ h') ^^^ (h ^^^ h'.sshiftRight 15) := by rw [e]
      have l : (h.sshiftRight 15 ^^^ h) ^^^ (h ^^^ h'.sshiftRight 15) = h.sshiftRight 15 ^^^ h'.sshiftRight 15 := by
        rw [BitVec.xor_assoc, ← BitVec.xor_assoc h h]; simp
      have r : (h'.sshiftRight 15 ^^^ h') ^^^ (h ^^^ h'.sshiftRight 15) = h ^^^ h' := by
        rw [BitVec.xor_comm (h'.sshiftRight 15), BitVec.xor_comm h (h'.sshiftRight 15), BitVec.xor_assoc, ← BitVec.xor_assoc (h'.sshiftRight 15)]
        simp [BitVec.xor_comm]
      rw [l, r] at this; exact this
    have hb := sar_fix _ e'
    by_cases c : (h ^^^ h').getLsbD 31
    · right
      apply BitVec.eq_of_getLsbD_eq
      intro i hi
      have := hb i hi
      rw [c] at this
      simp only [BitVec.getLsbD_xor] at this
      simp only [BitVec.getLsbD_not, hi, decide_true, Bool.true_and]
      revert this
      cases h.getLsbD i <;> cases h'.getLsbD i <;> simp
    · left
      apply BitVec.eq_of_getLsbD_eq
      intro i hi
      have := hb i hi
      rw [Bool.not_eq_true] at c
      rw [c] at this
      simp only [BitVec.getLsbD_xor] at this
      revert this
      cases h.getLsbD i <;> cases h'.getLsbD i <;> simp
  · rintro (rfl | rfl)
    · rfl
    · apply BitVec.eq_of_getLsbD_eq
      intro i hi
      simp only [BitVec.getLsbD_xor, BitVec.getLsbD_sshiftRight, BitVec.getLsbD_not, BitVec.msb_not, hi, decide_true, Bool.true_and]
      by_cases c : 15 + i < 32
      · simp [c, Nat.not_le.mpr hi]
      · simp [c, Nat.not_le.mpr hi]

/-! ## The property -/

/-- **C25**, positions.  For a fixed seed, two lattice points (two to four axes) that differ modulo 2^32 in one axis
get different keys, and also different `HashPrimesHB` hashes. -/
theorem C25_axis_injective (seed : I32) (c : List I32) (hc : c.length ≤ 4) (i : Nat) (hi : i < c.length) (a b : I32) (hab : a ≠ b) :
    key seed (primed (c.set i a)) ≠ key seed (primed (c.set i b)) ∧
    hashPrimesHB seed (primed (c.set i a)) ≠ hashPrimesHB seed (primed (c.set i b)) := by
  have hk : key seed (primed (c.set i a)) ≠ key seed (primed (c.set i b)) := fun h =>
    hab (foldr_set_inj primes primes_invertible c i hi (by simpa [primes] using hc) a b (xor_left_inj h))
  obtain ⟨q, hq⟩ := mulA_invertible
  exact ⟨hk, fun h => hk (odd_mul_inj hq h)⟩

/-- **C25**, seeds.  At a fixed lattice point different seeds get different keys and different `HashPrimesHB` hashes. -/
theorem C25_seed_injective (s t : I32) (p : List I32) (hst : s ≠ t) :
    key s p ≠ key t p ∧ hashPrimesHB s p ≠ hashPrimesHB t p := by
  have hk : key s p ≠ key t p := fun h => hst (xor_right_inj h)
  obtain ⟨q, hq⟩ := mulA_invertible
  exact ⟨hk, fun h => hk (odd_mul_inj hq h)⟩

/-- **C25**, surjectivity: at a fixed lattice point every 32 bit hash is produced by exactly one seed. -/
theorem C25_seed_bijective (p : List I32) (v : I32) : ∃ s, hashPrimesHB s p = v ∧ ∀ t, hashPrimesHB t p = v → t = s := by
  obtain ⟨q, hq⟩ := mulA_invertible
  refine ⟨(v * q) ^^^ p.foldr (· ^^^ ·) 0, ?_, ?_⟩
  · have h1 : ∀ x : I32, x * 1 = x := BitVec.mul_one
    unfold hashPrimesHB key
    rw [BitVec.xor_assoc, BitVec.xor_self, BitVec.xor_zero, BitVec.mul_assoc, BitVec.mul_comm q, hq, h1]
  · intro t ht
    apply Decidable.byContradiction
    intro hn
    refine (C25_seed_injective _ _ p hn).2 ?_
    rw [ht]
    have h1 : ∀ x : I32, x * 1 = x := BitVec.mul_one
    unfold hashPrimesHB key
    rw [BitVec.xor_assoc, BitVec.xor_self, BitVec.xor_zero, BitVec.mul_assoc, BitVec.mul_comm q, hq, h1]

/-- **C25**, the mixing step of `HashPrimes`: two seeds or lattice points collide exactly if their unmixed hashes are
equal or bitwise complements of each other, so a collision class has two elements, never more. -/
theorem C25_mix_collisions (s t : I32) (p q : List I32) :
    hashPrimes s p = hashPrimes t q ↔ hashPrimesHB s p = hashPrimesHB t q ∨ hashPrimesHB s p = ~~~ hashPrimesHB t q :=
  sar_collide _ _

/-- **C25**, `HashPrimes` is a 31 bit hash: its sign bit is never set.  (The simplex gradient selection relies on it.) -/
theorem C25_mix_nonneg (s : I32) (p : List I32) : (hashPrimes s p).msb = false := by
  rw [hashPrimes_eq]
  simp [BitVec.msb_xor, BitVec.msb_sshiftRight]

/-- The seed of octave `i` is `seed + i`. -/
theorem octaveSeed_eq (seed : I32) (i : Nat) : octaveSeed seed i = seed + BitVec.ofNat 32 i := by
  induction i with
  | zero => simp [octaveSeed]
  | succ i ih =>
    rw [octaveSeed, ih, BitVec.sub_eq_add_neg, BitVec.neg_neg, BitVec.add_assoc]
    congr 1
    apply BitVec.eq_of_toNat_eq
    simp

/-- **C25**, octave seeds: the seeds of any two octaves `i ≠ j` below 2^32 differ; the number of octaves is an `int`. -/
theorem C25_octave_seeds_distinct (seed : I32) (i j : Nat) (hi : i < 2 ^ 31) (hj : j < 2 ^ 31) (hij : i ≠ j) :
    octaveSeed seed i = seed + BitVec.ofNat 32 i ∧ octaveSeed seed i ≠ octaveSeed seed j := by
  refine ⟨octaveSeed_eq seed i, ?_⟩
  rw [octaveSeed_eq, octaveSeed_eq]
  intro h
  have h' : BitVec.ofNat 32 i = BitVec.ofNat 32 j := by
    have := congrArg (fun x => x - seed) h
    simpa [BitVec.add_comm seed, BitVec.add_sub_cancel] using this
  have := congrArg BitVec.toNat h'
  simp only [BitVec.toNat_ofNat] at this
  rw [Nat.mod_eq_of_lt (by omega), Nat.mod_eq_of_lt (by omega)] at this
  exact hij this

/-! ## Deviation: value noise -/

/-- The value hash `key * key * A` used by Value and White noise does lose information: keys of opposite sign always
get the same value. -/
theorem C25_value_collision (s t : I32) (p q : List I32) (h : key s p = - key t q) : valueCoord s p = valueCoord t q := by
  unfold valueCoord
  rw [h]
  simp [BitVec.neg_mul, BitVec.mul_neg]

/-- ... and all keys divisible by 2^16 get the value 0 (the lattice point 0 with seed 0 among them). -/
theorem C25_value_zero (s : I32) (p : List I32) (n : I32) (h : key s p = n * 0x10000) : valueCoord s p = 0 := by
  unfold valueCoord
  rw [h]
  have : n * 0x10000#32 * (n * 0x10000#32 * mulA) = (n * (n * mulA)) * (0x10000#32 * 0x10000#32) := by
    ac_rfl
  show n * 0x10000#32 * (n * 0x10000#32 * mulA) = 0
  rw [this]
  have : (0x10000#32 * 0x10000#32 : I32) = 0 := by decide
  rw [this]; simp

/-! ## The hypotheses are met -/

example : ([5, 6, 7] : List I32).length ≤ 4 ∧ hashPrimesHB 1337 (primed ([5, 6, 7].set 1 8)) ≠ hashPrimesHB 1337 (primed ([5, 6, 7].set 1 9)) := by decide
example : hashPrimes 1337 (primed [5, 6]) ≠ hashPrimes 1338 (primed [5, 6]) := by decide
example : key 0x30000 (primed [0, 0]) = 3 * 0x10000 ∧ valueCoord 0x30000 (primed [0, 0]) = 0 ∧ valueCoord 7 (primed [0, 0]) ≠ 0 := by decide
example : key 5 [] = -key (-5) [] ∧ (5 : I32) ≠ -5 := by decide

end FastNoise.Hash
