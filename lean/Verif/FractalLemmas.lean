import Verif.Fractal
import Verif.LatticeLemmas
import Mathlib.Data.BitVec
import Mathlib.Data.List.Induction
import Mathlib.Algebra.BigOperators.Intervals
import Mathlib.Algebra.Order.BigOperators.Group.Finset
/-! Lemmas for fractals and domain warps. -/
namespace FastNoise.Fractal
open FastNoise.Hash FastNoise.Num FastNoise.Basic FastNoise.Lattice

/-! ## Specification -/

/-- Seed of octave `i`. -/
def octSeed (seed : I32) (i : Nat) : I32 := seed + BitVec.ofNat 32 i
/-- Position of octave `i`: frequency multiplied by the lacunarity `i` times. -/
noncomputable def octPos (pos : Pos) (lacunarity : ℝ) (i : Nat) : Pos := pos.map (· * lacunarity ^ i)

theorem octSeed_succ (seed : I32) (i : Nat) : octSeed seed i - (-1) = octSeed seed (i + 1) := by
  unfold octSeed
  rw [BitVec.ofNat_add]
  rw [sub_neg_eq_add, add_assoc]
  rfl

theorem octSeed_zero (seed : I32) : octSeed seed 0 = seed := by simp [octSeed]

theorem octPos_succ (pos : Pos) (l : ℝ) (i : Nat) : (octPos pos l i).map (· * l) = octPos pos l (i + 1) := by
  simp only [octPos, List.map_map]
  refine List.map_congr_left fun p _ => ?_
  simp only [Function.comp]; ring

theorem octPos_zero (pos : Pos) (l : ℝ) : octPos pos l 0 = pos := by simp [octPos]

/-! ## Loops -/

theorem fbmLoop_eq (source : Src) (gain ws l : ℝ) (seed : I32) (pos : Pos) (A : Nat → ℝ)
    (hA : ∀ i, A (i + 1) = A i * lerp 1 ((source (octSeed seed i) (octPos pos l i) + 1) * 0.5) ws * gain) (n : Nat) : ∀ i,
    fbmLoop source gain ws l n (octSeed seed i) (octPos pos l i) (A i) (source (octSeed seed i) (octPos pos l i))
      (∑ j ∈ Finset.range (i + 1), source (octSeed seed j) (octPos pos l j) * A j) =
      ∑ j ∈ Finset.range (i + 1 + n), source (octSeed seed j) (octPos pos l j) * A j := by
  induction n with
  | zero => intro i; rfl
  | succ n ih =>
    intro i
    rw [fbmLoop]
    simp only [octSeed_succ, octPos_succ, ← hA]
    have := ih (i + 1)
    rw [Finset.sum_range_succ] at this
    rw [this, show i + 1 + 1 + n = i + 1 + (n + 1) by omega]

theorem ridgedLoop_eq (source : Src) (gain ws l : ℝ) (seed : I32) (pos : Pos) (A : Nat → ℝ)
    (hA : ∀ i, A (i + 1) = A i * lerp 1 (1 - |source (octSeed seed i) (octPos pos l i)|) ws * gain) (n : Nat) : ∀ i,
    ridgedLoop source gain ws l n (octSeed seed i) (octPos pos l i) (A i) |source (octSeed seed i) (octPos pos l i)|
      (∑ j ∈ Finset.range (i + 1), (|source (octSeed seed j) (octPos pos l j)| * (-2) + 1) * A j) =
      ∑ j ∈ Finset.range (i + 1 + n), (|source (octSeed seed j) (octPos pos l j)| * (-2) + 1) * A j := by
  induction n with
  | zero => intro i; rfl
  | succ n ih =>
    intro i
    rw [ridgedLoop]
    simp only [octSeed_succ, octPos_succ, ← hA]
    have := ih (i + 1)
    rw [Finset.sum_range_succ] at this
    rw [this, show i + 1 + 1 + n = i + 1 + (n + 1) by omega]

/-! ## Weighted corner sums are interpolations -/

theorem interp_snoc : ∀ (ts : List ℝ) (t : ℝ) (f : List Bool → ℝ),
    interp f (ts ++ [t]) = lerp (interp (fun bs => f (bs ++ [false])) ts) (interp (fun bs => f (bs ++ [true])) ts) t
  | [], _, _ => rfl
  | s :: ts, t, f => by
    rw [List.cons_append, interp, interp_snoc ts t]
    rfl

theorem contrib_snoc (ts : List ℝ) (t : ℝ) (bs : List Bool) (b : Bool) (h : ts.length = bs.length) :
    contrib (ts ++ [t]) (bs ++ [b]) = contrib ts bs * if b then t else 1 - t := by
  simp only [contrib]
  rw [List.zipWith_append h]
  simp [List.foldl_append]

theorem corners_length (n : Nat) : ∀ bs ∈ corners n, bs.length = n := by
  induction n with
  | zero => simp [corners]
  | succ n ih =>
    intro bs hb
    simp only [corners, List.mem_append, List.mem_map] at hb
    rcases hb with ⟨a, ha, rfl⟩ | ⟨a, ha, rfl⟩ <;> simp [ih a ha]

theorem foldl_fma (g f : List Bool → ℝ) : ∀ (l : List (List Bool)) (a : ℝ), l.foldl (fun acc bs => Num.fma (g bs) (f bs) acc) a = a + (l.map fun bs => g bs * f bs).sum
  | [], a => by simp
  | b :: l, a => by
    rw [List.foldl_cons, foldl_fma g f l, List.map_cons, List.sum_cons, Num.fma]; ring

theorem weighted_eq_interp (ts : List ℝ) : ∀ f : List Bool → ℝ,
    ((corners ts.length).map fun bs => contrib ts bs * f bs).sum = interp f ts := by
  induction ts using List.reverseRecOn with
  | nil => intro f; simp [corners, contrib, interp]
  | append_singleton ts t ih =>
    intro f
    rw [interp_snoc, List.length_append, List.length_singleton, corners, List.map_append, List.sum_append, List.map_map, List.map_map,
      ← ih, ← ih, lerp, Num.fma]
    have e : ∀ b : Bool, ((corners ts.length).map ((fun bs => contrib (ts ++ [t]) bs * f bs) ∘ fun x => x ++ [b])).sum =
        (if b then t else 1 - t) * ((corners ts.length).map fun bs => contrib ts bs * f (bs ++ [b])).sum := by
      intro b
      rw [← List.sum_map_mul_left]
      congr 1
      refine List.map_congr_left fun bs hb => ?_
      simp only [Function.comp]
      rw [contrib_snoc _ _ _ _ (corners_length _ _ hb).symm]
      ring
    rw [e false, e true]
    simp only [Bool.false_eq_true, if_false, if_true]
    ring

theorem field_range (n k : Nat) (h : I32) : 0 ≤ ((field n k h).toInt : ℝ) ∧ ((field n k h).toInt : ℝ) ≤ fieldMax n := by
  have key : ∀ (v m : I32), m.toNat < 2 ^ 31 → (v &&& m).toInt = ((v &&& m).toNat : ℤ) ∧ (v &&& m).toNat ≤ m.toNat := by
    intro v m hm
    have : (v &&& m).toNat ≤ m.toNat := by rw [BitVec.toNat_and]; exact Nat.and_le_right
    exact ⟨BitVec.toInt_eq_toNat_of_lt (by omega), this⟩
  have key2 : ∀ (v : I32) (s : Nat), 1 ≤ s → s ≤ 31 → (v >>> s).toInt = ((v >>> s).toNat : ℤ) ∧ (v >>> s).toNat < 2 ^ (32 - s) := by
    intro v s h1 h2
    have hv := v.isLt
    have : (v >>> s).toNat < 2 ^ (32 - s) := by
      rw [BitVec.toNat_ushiftRight, Nat.shiftRight_eq_div_pow, Nat.div_lt_iff_lt_mul (by positivity), ← pow_add]
      rwa [show 32 - s + s = 32 by omega]
    have h3 : 2 ^ (32 - s) ≤ 2 ^ 31 := Nat.pow_le_pow_right (by omega) (by omega)
    exact ⟨BitVec.toInt_eq_toNat_of_lt (by omega), this⟩
  have fin : ∀ (v : I32) (m : Nat), v.toInt = (v.toNat : ℤ) ∧ v.toNat ≤ m → 0 ≤ (v.toInt : ℝ) ∧ (v.toInt : ℝ) ≤ m := by
    intro v m h
    rw [h.1]
    exact ⟨by positivity, by exact_mod_cast h.2⟩
  unfold field fieldMax
  split_ifs
  all_goals first
    | (have := fin _ 0xffff (key h 0xffff (by decide)); exact_mod_cast this)
    | (have := fin _ 0xffff ⟨(key2 h 16 (by omega) (by omega)).1, by have := (key2 h 16 (by omega) (by omega)).2; omega⟩; exact_mod_cast this)
    | (have := fin _ 0x3ff (key h 0x3ff (by decide)); exact_mod_cast this)
    | (have := fin _ 0x3ff (key (h.sshiftRight 11) 0x3ff (by decide)); exact_mod_cast this)
    | (have := fin _ 0x3ff ⟨(key2 h 22 (by omega) (by omega)).1, by have := (key2 h 22 (by omega) (by omega)).2; omega⟩; exact_mod_cast this)
    | (have := fin _ 0xff (key h 0xff (by decide)); exact_mod_cast this)
    | (have := fin _ 0xff (key (h.sshiftRight 8) 0xff (by decide)); exact_mod_cast this)
    | (have := fin _ 0xff (key (h.sshiftRight 16) 0xff (by decide)); exact_mod_cast this)
    | (have := fin _ 0xff ⟨(key2 h 24 (by omega) (by omega)).1, by have := (key2 h 24 (by omega) (by omega)).2; omega⟩; exact_mod_cast this)

theorem fieldMax_pos (n : Nat) : 0 < fieldMax n := by unfold fieldMax; split_ifs <;> norm_num

theorem axisWarp_eq (seed : I32) (x : Pos) (k : Nat) : axisWarp seed x k =
    interp (fun bs => ((field x.length k (hashPrimesHB seed (corner x bs))).toInt : ℝ)) (x.map fun x => interpHermite (x - (⌊x⌋ : ℤ)))
      * (1 / (fieldMax x.length / 2)) - 1 := by
  unfold axisWarp
  simp only [foldl_fma, zero_add]
  rw [← weighted_eq_interp]
  simp

theorem axisWarp_range (seed : I32) (x : Pos) (k : Nat) : |axisWarp seed x k| ≤ 1 := by
  rw [axisWarp_eq]
  have h := interp_mem 0 (fieldMax x.length) (x.map fun x => interpHermite (x - (⌊x⌋ : ℤ)))
    (fun bs => ((field x.length k (hashPrimesHB seed (corner x bs))).toInt : ℝ))
    (by
      intro t ht
      obtain ⟨x, _, rfl⟩ := List.mem_map.mp ht
      exact hermite_mem (fract_range x).1 (fract_range x).2)
    (fun bs _ => field_range _ _ _)
  have hp := fieldMax_pos x.length
  generalize interp _ _ = v at h
  have e : v * (1 / (fieldMax x.length / 2)) = 2 * (v / fieldMax x.length) := by field_simp
  have h0 : 0 ≤ v / fieldMax x.length := div_nonneg h.1 hp.le
  have h1 : v / fieldMax x.length ≤ 1 := (div_le_one hp).mpr h.2
  rw [e, abs_le]
  constructor <;> linarith

theorem sumSqR_eq : ∀ l : List ℝ, sumSqR l = (l.map (· ^ 2)).sum
  | [] => rfl
  | [a] => by simp [sumSqR, pow_two]
  | a :: b :: r => by
    have e : sumSqR (a :: b :: r) = Num.fma a a (sumSqR (b :: r)) := rfl
    rw [e, sumSqR_eq (b :: r), Num.fma]; simp only [List.map_cons, List.sum_cons]; ring

theorem sumSqR_range (l : List ℝ) (h : ∀ x ∈ l, |x| ≤ 1) : 0 ≤ sumSqR l ∧ sumSqR l ≤ l.length := by
  rw [sumSqR_eq]
  induction l with
  | nil => simp
  | cons a l ih =>
    have h1 := h a (by simp)
    have := ih (fun x hx => h x (by simp [hx]))
    have h2 : a ^ 2 ≤ 1 := by rw [← sq_abs]; nlinarith [abs_nonneg a]
    simp only [List.map_cons, List.sum_cons, List.length_cons]
    push_cast
    constructor <;> nlinarith [sq_nonneg a]

end FastNoise.Fractal
