import Verif.NormCheck
import Verif.RangeCheckLemmas
import Mathlib.Analysis.SpecialFunctions.Sqrt
/-! # The checker of `Verif.NormCheck` is right -/
namespace FastNoise.NormCheck
open FastNoise.RangeCheck

noncomputable section

@[simp] theorem force_eq (x : Nat) (k : Nat → Bool) : force x k = k x := by cases x <;> rfl
@[simp] theorem forces_eq : ∀ (l : List Z) (k : List Z → Bool), forces l k = k l
  | [], _ => rfl
  | x :: l, k => by
    show (force x.1 fun a => force x.2 fun b => forces l fun l' => k ((a, b) :: l')) = _
    rw [force_eq, force_eq, forces_eq l]

/-- What is summed up. -/
def hump (q : Par) (x : List ℝ) (v : List Z) : ℝ := max (level q (subR x (zrs v))) 0 ^ 4 * (√(q.T - level q (subR x (zrs v))) * 2 ^ 60)

theorem secant_sound (a : Nat) (k : Nat → Nat → Bool) (h : secant a k = true) : ∃ j b : Nat, k j b = true ∧ (2 ^ 120 : ℝ) ≤ 4 * j * b := by
  unfold secant root at h
  simp only [force_eq] at h
  refine ⟨_, _, h, ?_⟩
  generalize Nat.div 1152921504606846976 _ = j
  have h1 : (2 ^ 120 : Nat) < 4 * (j + 1) * (2 ^ 120 / (4 * (j + 1)) + 1) := Nat.lt_mul_div_succ _ (by omega)
  have h2 : ((2 ^ 120 : Nat) : ℝ) < ((4 * (j + 1) * (2 ^ 120 / (4 * (j + 1)) + 1) : Nat) : ℝ) := by exact_mod_cast h1
  have h3 : ((4 * (j + 1) * (2 ^ 120 / (4 * (j + 1)) + 1) : Nat) : ℝ) = 4 * ((Nat.succ j : Nat) : ℝ) * ((Nat.succ (Nat.div 1329227995784915872903807060280344576 (Nat.mul 4 (Nat.succ j))) : Nat) : ℝ) := by
    rw [Nat.cast_mul, Nat.cast_mul]
    rfl
  rw [h3] at h2
  refine le_of_lt (lt_of_eq_of_lt ?_ h2)
  push_cast; norm_num

theorem sqrt_secant {j b y : ℝ} (hj : 0 ≤ j) (hb : 0 ≤ b) (hy : 0 ≤ y) (h : (2 ^ 120 : ℝ) ≤ 4 * j * b) : √y * 2 ^ 60 ≤ j * y + b := by
  have h1 : (0 : ℝ) ≤ j * y + b := by positivity
  have h2 := Real.sq_sqrt hy
  refine le_of_sq_le_sq ?_ h1
  nlinarith [sq_nonneg (j * y - b), mul_le_mul_of_nonneg_right h hy]

/-- The expansion of a term. -/
theorem expand {A β j x D P2 P3 P4 : ℝ} (hj : 0 ≤ j) (hx : |x| ≤ D) (h2 : A ^ 2 * (6 * β - 4 * j * A) ≤ P2) (h20 : 0 ≤ P2) (h3 : |A * (6 * j * A - 4 * β)| ≤ P3)
    (h4 : β - 4 * j * A ≤ P4) (h40 : 0 ≤ P4) : (A - x) ^ 4 * (β + j * x) ≤ A ^ 4 * β + A ^ 3 * (j * A - 4 * β) * x + D * D * (P2 + D * (P3 + D * (P4 + D * j))) := by
  have hD : 0 ≤ D := (abs_nonneg _).trans hx
  have hx2 : x ^ 2 ≤ D * D := by rw [← sq_abs, sq]; exact mul_self_le_mul_self (abs_nonneg _) hx
  have e : (A - x) ^ 4 * (β + j * x) = A ^ 4 * β + A ^ 3 * (j * A - 4 * β) * x + x ^ 2 * (A ^ 2 * (6 * β - 4 * j * A) + (x * (A * (6 * j * A - 4 * β)) + (x ^ 2 * (β - 4 * j * A) + x ^ 2 * (x * j)))) := by
    ring
  rw [e]
  have i3 : x * (A * (6 * j * A - 4 * β)) ≤ D * P3 := (le_abs_self _).trans (by rw [abs_mul]; exact mul_le_mul hx h3 (abs_nonneg _) hD)
  have i4 : x ^ 2 * (β - 4 * j * A) ≤ D * D * P4 := (mul_le_mul_of_nonneg_left h4 (sq_nonneg x)).trans (mul_le_mul_of_nonneg_right hx2 h40)
  have i5 : x ^ 2 * (x * j) ≤ D * D * (D * j) := by
    have : x * j ≤ D * j := mul_le_mul_of_nonneg_right ((le_abs_self x).trans hx) hj
    exact (mul_le_mul_of_nonneg_left this (sq_nonneg x)).trans (mul_le_mul_of_nonneg_right hx2 (by positivity))
  have h30 : 0 ≤ P3 := (abs_nonneg _).trans h3
  have i6 : A ^ 2 * (6 * β - 4 * j * A) + (x * (A * (6 * j * A - 4 * β)) + (x ^ 2 * (β - 4 * j * A) + x ^ 2 * (x * j))) ≤ P2 + D * (P3 + D * (P4 + D * j)) := by nlinarith
  have i7 : (0 : ℝ) ≤ P2 + D * (P3 + D * (P4 + D * j)) := by positivity
  have := (mul_le_mul_of_nonneg_left i6 (sq_nonneg x)).trans (mul_le_mul_of_nonneg_right hx2 i7)
  linarith

/-- `term` is an upper bound. -/
theorem term_sound {e E a K D : Nat} {k : Nat → Nat → Nat → Bool} (he : e = 0 ∨ E = 0) (h : term e E a K D k = true) {x : ℝ} (hx : |x| ≤ D) (hy : 0 ≤ (a : ℝ) + x) :
    ∃ c p1 p2 : Nat, k c p1 p2 = true ∧ max (((e : ℝ) - E) - x) 0 ^ 4 * (√(a + x) * 2 ^ 60) ≤ c + ((p1 : ℝ) - p2) * x := by
  unfold term at h
  obtain ⟨j, b, h, hjb⟩ := secant_sound _ _ h
  simp only [force_eq] at h
  have hs := sqrt_secant (Nat.cast_nonneg j) (Nat.cast_nonneg b) hy hjb
  set β : Nat := Nat.add (Nat.mul j a) b with hβ
  have hβr : (β : ℝ) = j * a + b := by rw [hβ]; show ((j * a + b : Nat) : ℝ) = _; push_cast; ring
  have key : ∀ A : ℝ, max (A - x) 0 ^ 4 * (√(a + x) * 2 ^ 60) ≤ (A - x) ^ 4 * (β + j * x) := by
    intro A
    have h1 : max (A - x) 0 ^ 4 ≤ (A - x) ^ 4 := by
      rcases le_total (A - x) 0 with hA | hA
      · rw [max_eq_right hA, zero_pow (by norm_num)]; exact Even.pow_nonneg (by decide) _
      · rw [max_eq_left hA]
    have h2 : √((a : ℝ) + x) * 2 ^ 60 ≤ β + j * x := by rw [hβr]; linarith
    exact mul_le_mul h1 h2 (by positivity) (Even.pow_nonneg (by decide) _)
  have hj0 : (0 : ℝ) ≤ j := Nat.cast_nonneg j
  have hβ0 : (0 : ℝ) ≤ β := Nat.cast_nonneg β
  rcases cond_eq h with ⟨g1, g2⟩ | ⟨g1, g2⟩
  · have hE : E = 0 := Nat.eq_of_beq_eq_true g1
    refine ⟨_, _, _, g2, ?_⟩
    subst hE
    rw [Nat.cast_zero, sub_zero]
    refine (key e).trans ((expand (P2 := ((e * e * (6 * β - 4 * (j * e)) : Nat) : ℝ)) (P3 := ((e * zabs (6 * (j * e), 4 * β) : Nat) : ℝ)) (P4 := ((β - 4 * (j * e) : Nat) : ℝ))
      hj0 hx ?_ (Nat.cast_nonneg _) ?_ ?_ (Nat.cast_nonneg _)).trans (le_of_eq ?_))
    · push_cast [nat_sub_cast]
      rw [sq]
      exact mul_le_mul_of_nonneg_left (le_trans (le_of_eq (by ring)) (le_max_left _ _)) (by positivity)
    · rw [Nat.cast_mul, zabs_eq, abs_mul, abs_of_nonneg (Nat.cast_nonneg e)]
      refine le_of_eq ?_
      congr 2
      simp only [zr]; push_cast; ring
    · push_cast [nat_sub_cast]
      exact le_trans (le_of_eq (by ring)) (le_max_left _ _)
    · show _ = (((e * e * (e * e) * β + D * D * (e * e * (6 * β - 4 * (j * e)) + D * (e * zabs (6 * (j * e), 4 * β) + D * (β - 4 * (j * e) + D * j))) : Nat) : ℝ)) + (((e * (e * e) * (j * e) : Nat) : ℝ) - ((e * (e * e) * (4 * β) : Nat) : ℝ)) * x
      push_cast
      ring
  · have he0 : e = 0 := he.resolve_right fun hE => by rw [hE] at g1; cases g1
    refine ⟨_, _, _, g2, ?_⟩
    subst he0
    rw [Nat.cast_zero, zero_sub]
    refine (key (-E)).trans ((expand (P2 := ((E * E * (6 * β + 4 * (j * E)) : Nat) : ℝ)) (P3 := ((E * (6 * (j * E) + 4 * β) : Nat) : ℝ)) (P4 := ((β + 4 * (j * E) : Nat) : ℝ))
      hj0 hx ?_ (Nat.cast_nonneg _) ?_ ?_ (Nat.cast_nonneg _)).trans (le_of_eq ?_))
    · push_cast
      exact le_of_eq (by ring)
    · push_cast
      rw [show -(E : ℝ) * (6 * j * -E - 4 * β) = E * (6 * (j * E) + 4 * β) by ring, abs_of_nonneg (by positivity)]
    · push_cast
      exact le_of_eq (by ring)
    · show _ = (((E * E * (E * E) * β + D * D * (E * E * (6 * β + 4 * (j * E)) + D * (E * (6 * (j * E) + 4 * β) + D * (β + 4 * (j * E) + D * j))) : Nat) : ℝ)) + (((E * (E * E) * (j * E + 4 * β) : Nat) : ℝ) - 0) * x
      push_cast
      ring

theorem axpy_sound (p1 p2 : Nat) : ∀ {g l : List Z} {h : List ℝ} {k : List Z → Bool}, g.length = h.length → l.length = h.length → axpy p1 p2 g l k = true →
    ∃ l', k l' = true ∧ l'.length = h.length ∧ dotR (zrs l') h = dotR (zrs l) h + ((p1 : ℝ) - p2) * dotR (zrs g) h
  | [], [], [], _, _, _, hk => ⟨[], hk, rfl, by simp [dotR]⟩
  | [], _, _ :: _, _, h1, _, _ => by simp at h1
  | [], _ :: _, [], _, _, h2, _ => by simp at h2
  | _ :: _, _, [], _, h1, _, _ => by simp at h1
  | _ :: _, [], _ :: _, _, _, h2, _ => by simp at h2
  | x :: g, y :: l, z :: h, k, h1, h2, hk => by
    have hk' : (force (y.1 + (p1 * x.1 + p2 * x.2)) fun a => force (y.2 + (p1 * x.2 + p2 * x.1)) fun b => axpy p1 p2 g l fun l' => k ((a, b) :: l')) = true := hk
    rw [force_eq, force_eq] at hk'
    obtain ⟨l', e1, e2, e3⟩ := axpy_sound p1 p2 (h := h) (by simpa using h1) (by simpa using h2) hk'
    refine ⟨_, e1, by simp [e2], ?_⟩
    simp only [zrs_cons, dotR, e3, zr]
    push_cast
    ring

/-- The quadratic part of the change of the level. -/
def quad (q : Par) (h : List ℝ) : ℝ := q.t * (q.m * dotR h h - sumR h ^ 2)

theorem level_at {q : Par} {c r : List Nat} {v : List Z} {h : List ℝ} (hb : Bnd r h) (hc : c.length = h.length) (hv : v.length = h.length) (hm : h.length ≤ q.m) :
    level q (subR (addR (nrs c) h) (zrs v)) = (lpos q (offs c v) : ℝ) - lneg q (offs c v) - (2 * q.t * dotR (zrs (gram q (offs c v))) h + quad q h) ∧
      0 ≤ quad q h ∧ quad q h ≤ kap q r ∧ |2 * q.t * dotR (zrs (gram q (offs c v))) h| ≤ 2 * q.t * (wsum r (gram q (offs c v)) : ℝ) := by
  obtain ⟨ε, κ, e1, e2, e3, e4, e5⟩ := level_box (q := q) hb hc hv hm
  have hd : (zrs (offs c v)).length = h.length := by rw [length_zrs, length_offs (by rw [hc, hv]), hc]
  have e0 : level q (subR (addR (nrs c) h) (zrs v)) = (lpos q (offs c v) : ℝ) - lneg q (offs c v) - (2 * q.t * dotR (zrs (gram q (offs c v))) h + quad q h) := by
    rw [addR_subR (by simpa using hc) (by simpa using hv), ← offs_zrs, level_add q hd, level_mid, gram_eq]; rfl
  have hk : κ = quad q h := by linarith
  rw [hk] at e3 e4
  refine ⟨e0, e3, e4, ?_⟩
  rw [abs_mul, abs_of_nonneg (by positivity)]
  exact mul_le_mul_of_nonneg_left (wsum_bound _ hb) (by positivity)

theorem dist_nonneg' {q : Par} (ht : q.t = 1) {y : List ℝ} (hm : y.length ≤ q.m) : 0 ≤ q.T - level q y := by
  unfold level
  rw [ht]
  have h1 := sum_sq_le y
  have h2 : (y.length : ℝ) * dotR y y ≤ q.m * dotR y y := mul_le_mul_of_nonneg_right (by exact_mod_cast hm) (dotR_self_nonneg y)
  push_cast
  linarith

theorem leaf_sound {q : Par} (ht : q.t = 1) {c r : List Nat} {h : List ℝ} (hb : Bnd r h) (hc : c.length = h.length) (hm : h.length ≤ q.m) :
    ∀ (L : List (List Z)) (a : Nat) (l : List Z) (p1 p2 : Nat), (∀ v ∈ L, v.length = h.length) → l.length = h.length → leaf q c r (kap q r) L a l p1 p2 = true →
      a + 2 * dotR (zrs l) h + ((p1 : ℝ) - p2) * quad q h + (L.map (hump q (addR (nrs c) h))).sum ≤ q.B
  | [], a, l, p1, p2, _, _, hk => by
    have hk' : a + (2 * wabs r l + (p1 - p2) * kap q r) ≤ q.B := Nat.le_of_ble_eq_true hk
    have h1 : ((a + (2 * wabs r l + (p1 - p2) * kap q r) : Nat) : ℝ) ≤ q.B := by exact_mod_cast hk'
    have h2 := (abs_le.mp (wabs_bound l hb)).2
    have hq : 0 ≤ quad q h ∧ quad q h ≤ kap q r := by
      have := level_at (q := q) (v := List.replicate h.length (0, 0)) hb hc (by simp) hm
      exact ⟨this.2.1, this.2.2.1⟩
    have h3 : ((p1 : ℝ) - p2) * quad q h ≤ ((p1 - p2 : Nat) : ℝ) * kap q r := by
      rw [nat_sub_cast]
      exact mul_le_mul (le_max_left _ _) hq.2 hq.1 (le_max_right _ _)
    push_cast at h1 h3
    simp only [List.map_nil, List.sum_nil]
    linarith
  | v :: L, a, l, p1, p2, hL, hl, hk => by
    have hk' : (forces (offs c v) fun d => force (lneg q d) fun ln => force (lpos q d) fun lp => forces (gram q d) fun g => force (2 * wsum r g + kap q r) fun D =>
      cond (Nat.ble (lp + D) ln) (leaf q c r (kap q r) L a l p1 p2)
        (term (lp - ln) (ln - lp) (q.T + ln - lp) (kap q r) D fun cc s1 s2 => axpy s1 s2 g l fun l' => leaf q c r (kap q r) L (a + cc) l' (p1 + s1) (p2 + s2))) = true := hk
    simp only [force_eq, forces_eq] at hk'
    have hv := hL v (List.mem_cons_self ..)
    have hL' : ∀ v ∈ L, v.length = h.length := fun w hw => hL w (List.mem_cons_of_mem _ hw)
    obtain ⟨k1, k2, k3, k4⟩ := level_at (q := q) hb hc hv hm
    have hlen : (offs c v).length = h.length := by rw [length_offs (by rw [hc, hv]), hc]
    rw [ht] at k1 k4
    set ε := dotR (zrs (gram q (offs c v))) h with hε
    push_cast at k1 k4
    rw [mul_one] at k1 k4
    set D : Nat := 2 * wsum r (gram q (offs c v)) + kap q r with hD
    have hDr : (D : ℝ) = 2 * wsum r (gram q (offs c v)) + kap q r := by rw [hD]; push_cast; ring
    have hx : |2 * ε + quad q h| ≤ D := by
      have := abs_le.mp k4
      rw [hDr, abs_le]; constructor <;> linarith
    simp only [List.map_cons, List.sum_cons]
    rcases cond_eq hk' with ⟨g1, g2⟩ | ⟨_, g2⟩
    · have := leaf_sound ht hb hc hm L a l p1 p2 hL' hl g2
      have h0 : hump q (addR (nrs c) h) v = 0 := by
        have h1 : ((lpos q (offs c v) + D : Nat) : ℝ) ≤ lneg q (offs c v) := by exact_mod_cast Nat.le_of_ble_eq_true g1
        push_cast at h1
        unfold hump
        rw [k1, max_eq_right (by have := (abs_le.mp hx).1; linarith)]
        ring
      rw [h0]; linarith
    · have hmid : 0 ≤ (q.T : ℝ) - ((lpos q (offs c v) : ℝ) - lneg q (offs c v)) := by
        rw [← level_mid]; exact dist_nonneg' ht (by rw [length_zrs, hlen]; exact hm)
      have hle : lpos q (offs c v) ≤ q.T + lneg q (offs c v) := by
        have : (lpos q (offs c v) : ℝ) ≤ ((q.T + lneg q (offs c v) : Nat) : ℝ) := by push_cast; linarith
        exact_mod_cast this
      have ha : ((q.T + lneg q (offs c v) - lpos q (offs c v) : Nat) : ℝ) = q.T - ((lpos q (offs c v) : ℝ) - lneg q (offs c v)) := by
        rw [Nat.cast_sub hle]; push_cast; ring
      have hee : ((lpos q (offs c v) - lneg q (offs c v) : Nat) : ℝ) - ((lneg q (offs c v) - lpos q (offs c v) : Nat) : ℝ) = (lpos q (offs c v) : ℝ) - lneg q (offs c v) := zr_sub _ _
      have hdist : (q.T : ℝ) - level q (subR (addR (nrs c) h) (zrs v)) = ((q.T + lneg q (offs c v) - lpos q (offs c v) : Nat) : ℝ) + (2 * ε + quad q h) := by
        rw [ha, k1]; ring
      obtain ⟨cc, s1, s2, t1, t2⟩ := term_sound (x := 2 * ε + quad q h) (by omega) g2 hx (by
        rw [← hdist]
        refine dist_nonneg' ht ?_
        rw [length_subR (by rw [length_addR (by simpa using hc)]; simp [hc, hv]), length_addR (by simpa using hc)]
        simpa [hc] using hm)
      obtain ⟨l', u1, u2, u3⟩ := axpy_sound s1 s2 (h := h) (by unfold gram; rw [length_grams, hlen]) hl t1
      have := leaf_sound ht hb hc hm L _ l' _ _ hL' u2 u1
      have hh : hump q (addR (nrs c) h) v ≤ cc + ((s1 : ℝ) - s2) * (2 * ε + quad q h) := by
        unfold hump
        rw [hdist, k1, ← hee]
        exact t2
      rw [u3] at this
      push_cast at this
      linarith

theorem near_sound {q : Par} {c r : List Nat} {n : Nat} (hc : c.length = n) (hm : n ≤ q.m) : ∀ (L : List (List Z)) (k : List (List Z) → Bool), (∀ v ∈ L, v.length = n) → near q c r L k = true →
    ∃ L', k L' = true ∧ (∀ v ∈ L', v.length = n) ∧ ∀ h : List ℝ, Bnd r h → h.length = n → (L.map (hump q (addR (nrs c) h))).sum = (L'.map (hump q (addR (nrs c) h))).sum
  | [], k, _, hk => ⟨[], hk, by simp, fun _ _ _ => rfl⟩
  | v :: L, k, hL, hk => by
    have hv := hL v (List.mem_cons_self ..)
    have hL' : ∀ v ∈ L, v.length = n := fun w hw => hL w (List.mem_cons_of_mem _ hw)
    rcases cond_eq hk with ⟨g1, g2⟩ | ⟨_, g2⟩
    · obtain ⟨L', a1, a2, a3⟩ := near_sound hc hm L k hL' g2
      refine ⟨L', a1, a2, fun h hb hn => ?_⟩
      rw [List.map_cons, List.sum_cons, a3 h hb hn]
      obtain ⟨k1, k2, k3, k4⟩ := level_at (q := q) hb (hc.trans hn.symm) (hv.trans hn.symm) (by rw [hn]; exact hm)
      have h1 : ((lpos q (offs c v) + devi q r (offs c v) : Nat) : ℝ) ≤ lneg q (offs c v) := by exact_mod_cast Nat.le_of_ble_eq_true g1
      have e : (devi q r (offs c v) : ℝ) = 2 * q.t * wsum r (gram q (offs c v)) + kap q r := by
        show ((2 * q.t * wsum r (gram q (offs c v)) + kap q r : Nat) : ℝ) = _
        push_cast; ring
      push_cast at h1
      unfold hump
      rw [k1, max_eq_right (by have := (abs_le.mp k4).1; linarith)]
      ring
    · obtain ⟨L', a1, a2, a3⟩ := near_sound hc hm L _ hL' g2
      refine ⟨_, a1, fun w hw => ?_, fun h hb hn => by rw [List.map_cons, List.map_cons, List.sum_cons, List.sum_cons, a3 h hb hn]⟩
      rcases List.mem_cons.mp hw with rfl | hw
      · exact hv
      · exact a2 w hw

/-- **The checker is right**: on the part of the box where the coordinates are sorted downwards and their sum is at most half of `H`, the sum is at most the bound. -/
theorem check_sound {q : Par} (ht : q.t = 1) : ∀ (t : Tree) (c r : List Nat) (L : List (List Z)), (∀ v ∈ L, v.length = c.length) → c.length ≤ q.m → check q t c r L = true →
    ∀ x, InBox c r x → Down x → 2 * sumR x ≤ q.H → (L.map (hump q x)).sum ≤ q.B
  | .out, c, r, L, _, _, h, x, hb, hd, hs => by
    rcases cond_eq (h : cond (unsorted c r) true (beyond q.H c r) = true) with ⟨h1, _⟩ | ⟨_, h1⟩
    · exact absurd hd (unsorted_sound hb h1)
    · exact absurd hs (not_le.mpr (beyond_sound hb h1))
  | .leaf, c, r, L, hw, hm, h, x, hb, _, _ => by
    obtain ⟨d, d1, d2, d3, d4⟩ := inBox_disp hb
    have h' : (force (kap q r) fun K => leaf q c r K L 0 (zeros c) 0 0) = true := h
    rw [force_eq] at h'
    have hz : ∀ (c : List Nat) (d : List ℝ), c.length = d.length → (zeros c).length = d.length ∧ dotR (zrs (zeros c)) d = 0 := by
      intro c
      induction c with
      | nil => intro d hl; cases d <;> simp_all [zeros, dotR]
      | cons y ys ih =>
        intro d hl
        cases d with
        | nil => simp at hl
        | cons e es =>
          obtain ⟨i1, i2⟩ := ih es (by simpa using hl)
          constructor
          · show (zeros ys).length + 1 = es.length + 1
            rw [i1]
          · show zr (0, 0) * e + dotR (zrs (zeros ys)) es = 0
            rw [i2]; simp [zr]
    obtain ⟨z1, z2⟩ := hz c d d3
    have := leaf_sound ht d1 d3 (by rw [← d3]; exact hm) L 0 (zeros c) 0 0 (by rw [← d3]; exact hw) z1 h'
    rw [z2] at this
    rw [d2]
    simpa using this
  | .cut k a b, c, r, L, hw, hm, h, x, hb, hd, hs => by
    obtain ⟨c1, c2, h', e1, e2⟩ := split_sound k c r _ h
    have hlen : ∀ {c r : List Nat} {x : List ℝ}, InBox c r x → c.length = x.length := fun h => by
      obtain ⟨d, _, d2, d3, _⟩ := inBox_disp h
      rw [d2, length_addR (by simpa using d3)]; simp
    rcases cond_eq e1 with ⟨f1, f2⟩ | ⟨_, f2⟩
    · rcases e2 x hb with hx | hx
      · have hl : c1.length = c.length := by rw [hlen hx, hlen hb]
        exact check_sound ht a c1 h' L (by rw [hl]; exact hw) (by rw [hl]; exact hm) f1 x hx hd hs
      · have hl : c2.length = c.length := by rw [hlen hx, hlen hb]
        exact check_sound ht b c2 h' L (by rw [hl]; exact hw) (by rw [hl]; exact hm) f2 x hx hd hs
    · cases f2
  | .ref t, c, r, L, hw, hm, h, x, hb, hd, hs => by
    obtain ⟨L', a1, a2, a3⟩ := near_sound rfl hm L _ hw h
    have := check_sound ht t c r L' a2 hm a1 x hb hd hs
    obtain ⟨d, d1, d2, d3, d4⟩ := inBox_disp hb
    rw [d2] at this ⊢
    rw [a3 d d1 d3.symm]
    exact this

/-- A cut whose halves were checked separately. -/
theorem check_cut {q : Par} {k : Nat} {a b : Tree} {c r c1 c2 h : List Nat} {L : List (List Z)} (e : ∀ f, split k c r f = f c1 c2 h) (h1 : check q a c1 h L = true) (h2 : check q b c2 h L = true) :
    check q (.cut k a b) c r L = true := by
  show (split k c r fun a' b' h => cond (check q a a' h L) (check q b b' h L) false) = true
  rw [e, h1, h2]; rfl

end
end FastNoise.NormCheck
