import Verif.RateProps
/-!
# C76, continued: the fractal domain warps

`DomainWarpFractalProgressive` and `DomainWarpFractalIndependent` over a gradient warp of constant amplitude, constant gain, no weighting.
-/
namespace FastNoise.Rate
open FastNoise.Hash FastNoise.Num FastNoise.Basic FastNoise.Lattice

noncomputable section

/-! ## Specification -/

/-- The coordinates of `p` in each of the `n` octaves fit into 32 bits. -/
def OctavesFit (scale lac : ℝ) (n : Nat) (p : Pos) : Prop := ∀ i < n, ∀ a ∈ p, -2 ^ 31 ≤ a / scale * lac ^ i ∧ a / scale * lac ^ i < 2 ^ 31

/-- The product of `1 + c x^i` over `n` octaves. -/
def octaveProduct (c x : ℝ) (n : Nat) : ℝ := ∏ i ∈ Finset.range n, (1 + c * x ^ i)

/-! ## One octave -/

variable {D : Pos → Prop} {K S : ℝ} {s : Src}

theorem octaveProduct_succ (c x : ℝ) (n : Nat) : octaveProduct c x (n + 1) = (1 + c) * octaveProduct (c * x) x n := by
  unfold octaveProduct
  rw [Finset.prod_range_succ', pow_zero, mul_one, mul_comm]
  congr 1
  exact Finset.prod_congr rfl fun i _ => by ring

theorem octaveProduct_nonneg {c x : ℝ} (hc : 0 ≤ c) (hx : 0 ≤ x) (n : Nat) : 0 ≤ octaveProduct c x n := Finset.prod_nonneg fun i _ => by positivity

theorem Around.trans {b b' : ℝ} : ∀ {p q r : Pos}, Around b p q → Around b' q r → Around (b + b') p r
  | [], _, _, h, h' => by cases h; cases h'; exact List.Forall₂.nil
  | x :: p, _, _, h, h' => by
    cases h with
    | cons h1 h2 => cases h' with
      | cons g1 g2 =>
        refine List.Forall₂.cons ?_ (Around.trans h2 g2)
        rename_i y _ z _
        have := abs_add_le (z - y) (y - x)
        rw [sub_add_sub_cancel] at this
        linarith

theorem Around.mono {b b' : ℝ} (hb : b ≤ b') {p q : Pos} (h : Around b p q) : Around b' p q := h.imp fun _ _ h => h.trans hb

theorem Around.length {b : ℝ} {p q : Pos} (h : Around b p q) : p.length = q.length := h.length_eq

/-- A warp moves the output by at most the amplitude. -/
theorem warp_around (off : I32) (axis : Nat → ℝ) (hS : ∀ k, |axis k| ≤ S) (sd : I32) (amp : ℝ) (x out : Pos) :
    Around (|amp| * S) out (Fractal.gradientWarp off axis sd amp x out).1 := by
  refine around_mapIdx out _ fun k a => ?_
  simp only [Num.fma]
  rw [add_sub_cancel_right, abs_mul, abs_mul amp]
  have w := Fractal.axisWarp_range (sd + off) x k
  have := mul_le_mul w (mul_le_mul_of_nonneg_left (hS k) (abs_nonneg amp)) (by positivity) zero_le_one
  rwa [one_mul] at this

/-- How far two outputs can move apart. -/
theorem warp_rate (off : I32) (axis : Nat → ℝ) (hS : ∀ k, |axis k| ≤ S) (sd : I32) (amp freq : ℝ) (x y u v : Pos) (hl : x.length = y.length) (hlu : u.length = v.length)
    (hx : ∀ a ∈ x, InRange (a * freq)) (hy : ∀ a ∈ y, InRange (a * freq)) :
    manhattan (Fractal.gradientWarp off axis sd amp (x.map (· * freq)) u).1 (Fractal.gradientWarp off axis sd amp (y.map (· * freq)) v).1 ≤
      manhattan u v + 3 * u.length * S * |amp| * |freq| * manhattan x y := by
  have hS0 : 0 ≤ S := (abs_nonneg _).trans (hS 0)
  simp only [Fractal.gradientWarp]
  refine (manhattan_mapIdx (c := 1) (E := 3 * (manhattan x y * |freq|) * (|amp| * S)) u v _ _ hlu ?_).trans (le_of_eq (by ring))
  intro k a b
  have w := axisWarp_rate (sd + off) (x.map (· * freq)) (y.map (· * freq)) k (by simpa using hl)
    (by intro z hz; obtain ⟨a, ha, rfl⟩ := List.mem_map.mp hz; exact hx a ha) (by intro z hz; obtain ⟨a, ha, rfl⟩ := List.mem_map.mp hz; exact hy a ha)
  rw [manhattan_map_mul] at w
  simp only [Num.fma]
  generalize Fractal.axisWarp _ (x.map (· * freq)) k = p at *
  generalize Fractal.axisWarp _ (y.map (· * freq)) k = q at *
  rw [show p * (amp * axis k) + a - (q * (amp * axis k) + b) = (a - b) + (p - q) * (amp * axis k) by ring, one_mul]
  refine (abs_add_le _ _).trans (add_le_add le_rfl ?_)
  rw [abs_mul, abs_mul amp]
  exact mul_le_mul w (mul_le_mul_of_nonneg_left (hS k) (abs_nonneg _)) (by positivity) ((abs_nonneg _).trans w)

theorem lerp_zero_weight (a b : ℝ) : lerp a b 0 = a := by simp [lerp, Num.fma]

/-! ## The loops -/

theorem independent_rate (relaxed : Bool) (off : I32) (axis : Nat → ℝ) (hS : ∀ k, |axis k| ≤ S) (gain lac : ℝ) (p q : Pos) (hl : p.length = q.length) :
    ∀ (n : Nat) (sd : I32) (freq amp : ℝ) (w w' : Pos × ℝ), w.1.length = p.length → w'.1.length = p.length →
      (∀ j < n, ∀ a ∈ p, InRange (a * (freq * lac ^ (j + 1)))) → (∀ j < n, ∀ a ∈ q, InRange (a * (freq * lac ^ (j + 1)))) →
      let o := Fractal.independentLoop relaxed (Fractal.gradientWarp off axis) gain 0 lac p n sd freq amp w
      let o' := Fractal.independentLoop relaxed (Fractal.gradientWarp off axis) gain 0 lac q n sd freq amp w'
      o.length = p.length ∧ o'.length = p.length ∧ Around (|amp| * S * |gain| * geometric |gain| n) w.1 o ∧ Around (|amp| * S * |gain| * geometric |gain| n) w'.1 o' ∧
      manhattan o o' ≤ manhattan w.1 w'.1 + 3 * p.length * S * |amp| * |freq| * |gain * lac| * geometric |gain * lac| n * manhattan p q
  | 0, _, _, _, w, w', h, h', _, _ => by
    have z : ∀ u : Pos, Around 0 u u := fun u => by unfold Around; induction u with
      | nil => exact List.Forall₂.nil
      | cons a u ih => exact List.Forall₂.cons (by simp) ih
    simp only [Fractal.independentLoop, geometric, Finset.range_zero, Finset.sum_empty, mul_zero, zero_mul, add_zero]
    exact ⟨h, h', z _, z _, le_rfl⟩
  | n + 1, sd, freq, amp, w, w', h, h', hp, hq => by
    simp only [Fractal.independentLoop, lerp_zero_weight, mul_one]
    have s1 := warp_around off axis hS (sd - (-1)) (amp * gain) (p.map (· * (freq * lac))) w.1
    have s2 := warp_around off axis hS (sd - (-1)) (amp * gain) (q.map (· * (freq * lac))) w'.1
    have s3 := warp_rate off axis hS (sd - (-1)) (amp * gain) (freq * lac) p q w.1 w'.1 hl (by omega) (by simpa using hp 0 (by omega)) (by simpa using hq 0 (by omega))
    obtain ⟨a1, a2, a3, a4, a5⟩ := independent_rate relaxed off axis hS gain lac p q hl n (sd - (-1)) (freq * lac) (amp * gain) _ _ (s1.length.symm.trans h) (s2.length.symm.trans h')
      (fun j hj a ha => by have := hp (j + 1) (by omega) a ha; rwa [show freq * lac ^ (j + 1 + 1) = freq * lac * lac ^ (j + 1) by ring] at this)
      (fun j hj a ha => by have := hq (j + 1) (by omega) a ha; rwa [show freq * lac ^ (j + 1 + 1) = freq * lac * lac ^ (j + 1) by ring] at this)
    refine ⟨a1, a2, (s1.trans a3).mono (le_of_eq ?_), (s2.trans a4).mono (le_of_eq ?_), a5.trans ?_⟩
    · rw [geometric_succ, abs_mul]; ring
    · rw [geometric_succ, abs_mul]; ring
    · rw [h] at s3
      refine (add_le_add s3 le_rfl).trans (le_of_eq ?_)
      rw [geometric_succ]
      simp only [abs_mul]
      ring

theorem progressive_rate (relaxed : Bool) (off : I32) (axis : Nat → ℝ) (hS : ∀ k, |axis k| ≤ S) (gain lac : ℝ) (p q : Pos) (B : ℝ) :
    ∀ (n : Nat) (sd : I32) (freq amp b : ℝ) (w w' : Pos × ℝ), w.1.length = w'.1.length → Around b p w.1 → Around b q w'.1 → b + |amp| * S * |gain| * geometric |gain| n ≤ B →
      (∀ j < n, ∀ r, Around B p r → ∀ a ∈ r, InRange (a * (freq * lac ^ (j + 1)))) → (∀ j < n, ∀ r, Around B q r → ∀ a ∈ r, InRange (a * (freq * lac ^ (j + 1)))) →
      let o := Fractal.progressiveLoop relaxed (Fractal.gradientWarp off axis) gain 0 lac n sd freq amp w
      let o' := Fractal.progressiveLoop relaxed (Fractal.gradientWarp off axis) gain 0 lac n sd freq amp w'
      o.length = o'.length ∧ Around B p o ∧ Around B q o' ∧
      manhattan o o' ≤ manhattan w.1 w'.1 * octaveProduct (3 * w.1.length * S * |amp| * |freq| * |gain * lac|) |gain * lac| n
  | 0, _, _, _, b, w, w', h, hb, hb', hB, _, _ => by
    simp only [geometric, Finset.range_zero, Finset.sum_empty, mul_zero, add_zero] at hB
    simp only [Fractal.progressiveLoop, octaveProduct, Finset.range_zero, Finset.prod_empty, mul_one]
    exact ⟨h, hb.mono hB, hb'.mono hB, le_rfl⟩
  | n + 1, sd, freq, amp, b, w, w', h, hb, hb', hB, hp, hq => by
    have hS0 : 0 ≤ S := (abs_nonneg _).trans (hS 0)
    have bB : b ≤ B := by
      have : 0 ≤ |amp| * S * |gain| * geometric |gain| (n + 1) := mul_nonneg (by positivity) (geometric_nonneg (abs_nonneg _) _)
      linarith
    simp only [Fractal.progressiveLoop, lerp_zero_weight, mul_one]
    have s1 := warp_around off axis hS (sd - (-1)) (amp * gain) (w.1.map (· * (freq * lac))) w.1
    have s2 := warp_around off axis hS (sd - (-1)) (amp * gain) (w'.1.map (· * (freq * lac))) w'.1
    have s3 := warp_rate off axis hS (sd - (-1)) (amp * gain) (freq * lac) w.1 w'.1 w.1 w'.1 h h (by simpa using hp 0 (by omega) _ (hb.mono bB)) (by simpa using hq 0 (by omega) _ (hb'.mono bB))
    obtain ⟨a1, a3, a4, a5⟩ := progressive_rate relaxed off axis hS gain lac p q B n (sd - (-1)) (freq * lac) (amp * gain) (b + |amp * gain| * S) _ _
      ((s1.length.symm.trans h).trans s2.length) (hb.trans s1) (hb'.trans s2)
      (by refine le_trans (le_of_eq ?_) hB; rw [geometric_succ, abs_mul]; ring)
      (fun j hj r hr a ha => by have := hp (j + 1) (by omega) r hr a ha; rwa [show freq * lac ^ (j + 1 + 1) = freq * lac * lac ^ (j + 1) by ring] at this)
      (fun j hj r hr a ha => by have := hq (j + 1) (by omega) r hr a ha; rwa [show freq * lac ^ (j + 1 + 1) = freq * lac * lac ^ (j + 1) by ring] at this)
    refine ⟨a1, a3, a4, a5.trans ?_⟩
    rw [← s1.length, octaveProduct_succ]
    have e : 3 * (w.1.length : ℝ) * S * |amp * gain| * |freq * lac| * |gain * lac| = 3 * w.1.length * S * |amp| * |freq| * |gain * lac| * |gain * lac| := by
      simp only [abs_mul]; ring
    rw [e, ← mul_assoc]
    refine mul_le_mul_of_nonneg_right (s3.trans (le_of_eq ?_)) (octaveProduct_nonneg (by positivity) (abs_nonneg _) _)
    simp only [abs_mul]; ring

/-! ## C76 -/

/-- **C76**: an independent fractal warp of `N` octaves without weighting multiplies the rate with at most `1 + 3 n amplitude / scale` summed over the octaves with factors `(gain * lacunarity)^i`. -/
theorem C76_warp_independent (hK : 0 ≤ K) (hs : ChangesAtMost D K s) (relaxed : Bool) (n : Nat) (off : I32) (amp scale gain lac : ℝ) (octaves : ℤ) (h1 : 1 ≤ octaves)
    (axis : Nat → ℝ) (hS : ∀ k, |axis k| ≤ S) :
    ChangesAtMost (fun p => p.length = n ∧ OctavesFit scale lac octaves.toNat p ∧ ∀ q, Around (|amp| * S * geometric |gain| octaves.toNat) p q → D q)
      (K * (1 + 3 * n * (S * |amp| / |scale|) * geometric |gain * lac| octaves.toNat))
      (Fractal.independent relaxed ⟨Src.const gain, Src.const 0, octaves, lac⟩ (Fractal.gradientWarp off axis) scale (Src.const amp) s) := by
  intro seed p q hpq hp hq
  obtain ⟨m, rfl⟩ : ∃ m : Nat, octaves = m + 1 := ⟨(octaves - 1).toNat, by omega⟩
  have hm : ((m : ℤ) + 1).toNat = m + 1 := by omega
  rw [hm] at hp hq
  have hm' : ((m : ℤ) + 1 - 1).toNat = m := by omega
  have fit : ∀ {r : Pos}, OctavesFit scale lac (m + 1) r → ∀ j < m + 1, ∀ a ∈ r, InRange (a * (1 / scale * lac ^ j)) := by
    intro r h j hj a ha
    rw [inRange_iff, ← mul_assoc, mul_one_div]
    exact h j hj a ha
  have s1 := warp_around off axis hS seed amp (p.map (· * frequency scale)) p
  have s2 := warp_around off axis hS seed amp (q.map (· * frequency scale)) q
  have s3 := warp_rate off axis hS seed amp (frequency scale) p q p q hpq hpq (by simpa [frequency] using fit hp.2.1 0 (by omega)) (by simpa [frequency] using fit hq.2.1 0 (by omega))
  obtain ⟨a1, a2, a3, a4, a5⟩ := independent_rate relaxed off axis hS gain lac p q hpq m seed (frequency scale) amp _ _ s1.length.symm (s2.length.symm.trans hpq.symm)
    (fun j hj => fit hp.2.1 (j + 1) (by omega)) (fun j hj => fit hq.2.1 (j + 1) (by omega))
  have e : |amp| * S + |amp| * S * |gain| * geometric |gain| m = |amp| * S * geometric |gain| (m + 1) := by rw [geometric_succ]; ring
  simp only [Fractal.independent, Src.const, hm', hm]
  refine (hs seed _ _ (a1.trans a2.symm) (hp.2.2 _ ((s1.trans a3).mono (le_of_eq e))) (hq.2.2 _ ((s2.trans a4).mono (le_of_eq e)))).trans ?_
  rw [mul_assoc]
  refine mul_le_mul_of_nonneg_left ((a5.trans (add_le_add s3 le_rfl)).trans (le_of_eq ?_)) hK
  rw [geometric_succ, hp.1, frequency, abs_div, abs_one]
  ring

/-- **C76**: a progressive fractal warp multiplies the rate with at most the product of `1 + 3 n amplitude / scale * (gain * lacunarity)^i` over the octaves. -/
theorem C76_warp_progressive (hK : 0 ≤ K) (hs : ChangesAtMost D K s) (relaxed : Bool) (n : Nat) (off : I32) (amp scale gain lac : ℝ) (octaves : ℤ) (h1 : 1 ≤ octaves)
    (axis : Nat → ℝ) (hS : ∀ k, |axis k| ≤ S) :
    ChangesAtMost (fun p => p.length = n ∧ ∀ q, Around (|amp| * S * geometric |gain| octaves.toNat) p q → OctavesFit scale lac octaves.toNat q ∧ D q)
      (K * octaveProduct (3 * n * (S * |amp| / |scale|)) |gain * lac| octaves.toNat)
      (Fractal.progressive relaxed ⟨Src.const gain, Src.const 0, octaves, lac⟩ (Fractal.gradientWarp off axis) scale (Src.const amp) s) := by
  intro seed p q hpq hp hq
  obtain ⟨m, rfl⟩ : ∃ m : Nat, octaves = m + 1 := ⟨(octaves - 1).toNat, by omega⟩
  have hm : ((m : ℤ) + 1).toNat = m + 1 := by omega
  rw [hm] at hp hq
  have hm' : ((m : ℤ) + 1 - 1).toNat = m := by omega
  have hS0 : 0 ≤ S := (abs_nonneg _).trans (hS 0)
  have fit : ∀ {r : Pos}, OctavesFit scale lac (m + 1) r → ∀ j < m + 1, ∀ a ∈ r, InRange (a * (1 / scale * lac ^ j)) := by
    intro r h j hj a ha
    rw [inRange_iff, ← mul_assoc, mul_one_div]
    exact h j hj a ha
  have z : ∀ u : Pos, Around (|amp| * S * geometric |gain| (m + 1)) u u := fun u => by
    have h0 : 0 ≤ |amp| * S * geometric |gain| (m + 1) := mul_nonneg (by positivity) (geometric_nonneg (abs_nonneg _) _)
    unfold Around
    induction u with
    | nil => exact List.Forall₂.nil
    | cons a u ih => exact List.Forall₂.cons (by simpa using h0) ih
  have s1 := warp_around off axis hS seed amp (p.map (· * frequency scale)) p
  have s2 := warp_around off axis hS seed amp (q.map (· * frequency scale)) q
  have s3 := warp_rate off axis hS seed amp (frequency scale) p q p q hpq hpq (by simpa [frequency] using fit (hp.2 _ (z p)).1 0 (by omega))
    (by simpa [frequency] using fit (hq.2 _ (z q)).1 0 (by omega))
  have e : |amp| * S + |amp| * S * |gain| * geometric |gain| m = |amp| * S * geometric |gain| (m + 1) := by rw [geometric_succ]; ring
  obtain ⟨a1, a3, a4, a5⟩ := progressive_rate relaxed off axis hS gain lac p q _ m seed (frequency scale) amp (|amp| * S) _ _
    ((s1.length.symm.trans hpq).trans s2.length) s1 s2 (le_of_eq e)
    (fun j hj r hr => fit (hp.2 r hr).1 (j + 1) (by omega)) (fun j hj r hr => fit (hq.2 r hr).1 (j + 1) (by omega))
  simp only [Fractal.progressive, Src.const, hm', hm]
  refine (hs seed _ _ a1 (hp.2 _ a3).2 (hq.2 _ a4).2).trans ?_
  rw [mul_assoc]
  refine mul_le_mul_of_nonneg_left (a5.trans ?_) hK
  rw [← s1.length, octaveProduct_succ, mul_comm _ (manhattan p q), ← mul_assoc]
  have c0 : 3 * (n : ℝ) * (S * |amp| / |scale|) * |gain * lac| = 3 * p.length * S * |amp| * |frequency scale| * |gain * lac| := by
    rw [hp.1, frequency, abs_div, abs_one]; ring
  rw [c0]
  refine mul_le_mul_of_nonneg_right (s3.trans (le_of_eq ?_)) (octaveProduct_nonneg (by positivity) (abs_nonneg _) _)
  rw [hp.1, frequency, abs_div, abs_one]; ring

/-! ## The hypotheses are met -/

theorem around_two {b x y : ℝ} {q : Pos} (h : Around b [x, y] q) : ∃ u v, q = [u, v] ∧ |u - x| ≤ b ∧ |v - y| ≤ b := by
  obtain ⟨u, v, rfl⟩ := List.length_eq_two.mp h.length.symm
  simp only [Around, List.forall₂_cons, List.Forall₂.nil, and_true] at h
  exact ⟨u, v, rfl, h.1, h.2⟩

/-- Value noise of scale 100, warped by 3 octaves of scale 50 and amplitude 10 (gain 1/2, lacunarity 2), near the origin: at most 0.03 times 4.6 (independent) or 10.648 (progressive) per unit. -/
example (seed : I32) (x y : ℝ) (hx : |x| ≤ 1000) (hy : |y| ≤ 1000) (hx1 : |x + 1| ≤ 1000) :
    |Fractal.independent false ⟨Src.const 0.5, Src.const 0, 3, 2⟩ (Fractal.gradientWarp 0 fun _ => 1) 50 (Src.const 10) (value (rangeAfter []) 100 0) seed [x, y] -
      Fractal.independent false ⟨Src.const 0.5, Src.const 0, 3, 2⟩ (Fractal.gradientWarp 0 fun _ => 1) 50 (Src.const 10) (value (rangeAfter []) 100 0) seed [x + 1, y]| ≤ 0.03 * 4.6 ∧
    |Fractal.progressive false ⟨Src.const 0.5, Src.const 0, 3, 2⟩ (Fractal.gradientWarp 0 fun _ => 1) 50 (Src.const 10) (value (rangeAfter []) 100 0) seed [x, y] -
      Fractal.progressive false ⟨Src.const 0.5, Src.const 0, 3, 2⟩ (Fractal.gradientWarp 0 fun _ => 1) 50 (Src.const 10) (value (rangeAfter []) 100 0) seed [x + 1, y]| ≤ 0.03 * 10.648 := by
  have rg : |lastMax ([] : List (SetOp ℝ)) - lastMin []| / 2 = 1 := by norm_num [lastMax, lastMin, abs_of_pos]
  have hs : ChangesAtMost (PosFits 100) 0.03 (value (rangeAfter []) 100 0) := by
    intro seed p q hl hp hq
    refine ((C76_sources ⟨false, false, false, false, false⟩ [] 100 0 0).2.1 seed p q hl hp hq).trans (le_of_eq ?_)
    rw [rg]; norm_num [abs_of_pos]
  have three : (3 : ℤ).toNat = 3 := rfl
  have g : geometric |(0.5 : ℝ)| 3 = 1.75 := by norm_num [geometric, Finset.sum_range_succ, abs_of_pos]
  have g2 : geometric |(0.5 : ℝ) * 2| 3 = 3 := by norm_num [geometric, Finset.sum_range_succ, abs_of_pos]
  have pr : octaveProduct (3 * (2 : ℕ) * ((1 : ℝ) * |10| / |50|)) |(0.5 : ℝ) * 2| 3 = 10.648 := by norm_num [octaveProduct, Finset.prod_range_succ, abs_of_pos]
  have m : manhattan [x, y] [x + 1, y] = 1 := by simp [manhattan]
  have oct : ∀ z : ℝ, |z| ≤ 2000 → ∀ i < 3, -2 ^ 31 ≤ z / 50 * (2 : ℝ) ^ i ∧ z / 50 * (2 : ℝ) ^ i < 2 ^ 31 := by
    intro z hz i hi
    have := abs_le.mp hz
    have h3 : i = 0 ∨ i = 1 ∨ i = 2 := by omega
    rcases h3 with rfl | rfl | rfl <;> constructor <;> linarith
  have near : ∀ x : ℝ, |x| ≤ 1000 → ∀ q, Around (|10| * 1 * geometric |(0.5 : ℝ)| 3) [x, y] q → OctavesFit 50 2 3 q ∧ PosFits 100 q := by
    intro x hx q hq
    obtain ⟨u, v, rfl, hu, hv⟩ := around_two hq
    rw [g] at hu hv
    norm_num [abs_of_pos] at hu hv
    have := abs_le.mp hx; have := abs_le.mp hy; have := abs_le.mp hu; have := abs_le.mp hv
    have u2 : |u| ≤ 2000 := abs_le.mpr ⟨by linarith, by linarith⟩
    have v2 : |v| ≤ 2000 := abs_le.mpr ⟨by linarith, by linarith⟩
    constructor
    · intro i hi a ha
      simp only [List.mem_cons, List.not_mem_nil, or_false] at ha
      rcases ha with rfl | rfl
      · exact oct _ u2 i hi
      · exact oct _ v2 i hi
    · intro a ha
      simp only [List.mem_cons, List.not_mem_nil, or_false] at ha
      rcases ha with rfl | rfl <;> constructor <;> linarith
  have here : ∀ x : ℝ, |x| ≤ 1000 → OctavesFit 50 2 3 [x, y] := fun x hx => by
    intro i hi a ha
    simp only [List.mem_cons, List.not_mem_nil, or_false] at ha
    rcases ha with rfl | rfl
    · exact oct _ (hx.trans (by norm_num)) i hi
    · exact oct _ (hy.trans (by norm_num)) i hi
  constructor
  · have := C76_warp_independent (by norm_num) hs false 2 0 10 50 0.5 2 3 (by norm_num) (fun _ => 1) (S := 1) (by simp) seed [x, y] [x + 1, y] rfl
      ⟨rfl, here x hx, fun q hq => (near x hx q hq).2⟩ ⟨rfl, here (x + 1) hx1, fun q hq => (near (x + 1) hx1 q hq).2⟩
    refine this.trans ?_
    rw [three, g2, m]
    norm_num [abs_of_pos]
  · have := C76_warp_progressive (by norm_num) hs false 2 0 10 50 0.5 2 3 (by norm_num) (fun _ => 1) (S := 1) (by simp) seed [x, y] [x + 1, y] rfl
      ⟨rfl, near x hx⟩ ⟨rfl, near (x + 1) hx1⟩
    refine this.trans ?_
    rw [three, pr, m]
    norm_num

end
end FastNoise.Rate
