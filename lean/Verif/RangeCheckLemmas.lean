import Verif.RangeCheck
import Mathlib.Data.Real.Basic
import Mathlib.Tactic.Linarith
import Mathlib.Tactic.Ring
import Mathlib.Tactic.Positivity
import Mathlib.Tactic.GCongr
import Mathlib.Algebra.Order.BigOperators.Ring.List
/-! # The checker of `Verif.RangeCheck` is right -/
namespace FastNoise.RangeCheck

noncomputable section

/-! ## Values -/

def zr (z : Z) : ℝ := (z.1 : ℝ) - z.2
def zrs (l : List Z) : List ℝ := l.map zr
def nrs (l : List Nat) : List ℝ := l.map (fun n => (n : ℝ))

def addR : List ℝ → List ℝ → List ℝ
  | a :: as, b :: bs => (a + b) :: addR as bs
  | _, _ => []
def subR : List ℝ → List ℝ → List ℝ
  | a :: as, b :: bs => (a - b) :: subR as bs
  | _, _ => []
def dotR : List ℝ → List ℝ → ℝ
  | a :: as, b :: bs => a * b + dotR as bs
  | _, _ => 0
def sumR : List ℝ → ℝ
  | a :: as => a + sumR as
  | [] => 0

/-- The level of the falloff at offset `y`. -/
def level (q : Par) (y : List ℝ) : ℝ := q.T - q.t * (q.m * dotR y y - sumR y ^ 2)
/-- Ramp `g` times falloff at `x`, of the vertex `v`. -/
def contrib (q : Par) (v : List Z) (g : List Z) (x : List ℝ) : ℝ := dotR (zrs g) (subR x (zrs v)) * max (level q (subR x (zrs v))) 0 ^ 4

/-- However the vertices choose their ramps, the sum, added to `a`, stays below the bound. -/
def Sat (q : Par) (x : List ℝ) : St → ℝ → Prop
  | [], a => a ≤ q.B
  | (v, cs) :: L, a => ∀ g ∈ cs, Sat q x L (a + contrib q v g x)

theorem Sat.mono {q : Par} {x : List ℝ} : ∀ {L : St} {a b : ℝ}, Sat q x L a → b ≤ a → Sat q x L b
  | [], _, _, h, hb => le_trans hb h
  | (_, _) :: _, _, _, h, hb => fun g hg => (h g hg).mono (by linarith)

/-- The box. -/
def InBox : List Nat → List Nat → List ℝ → Prop
  | c :: cs, r :: rs, x :: xs => |x - c| ≤ r ∧ InBox cs rs xs
  | [], [], [] => True
  | _, _, _ => False

/-- Displacements from the middle of the box. -/
def Bnd : List Nat → List ℝ → Prop
  | r :: rs, h :: hs => |h| ≤ r ∧ Bnd rs hs
  | [], [] => True
  | _, _ => False

/-- All vectors of the state have `n` coordinates. -/
def Wf (n : Nat) (L : St) : Prop := ∀ p ∈ L, p.1.length = n ∧ ∀ g ∈ p.2, g.length = n

theorem inBox_disp : ∀ {c r : List Nat} {x : List ℝ}, InBox c r x → ∃ h, Bnd r h ∧ x = addR (nrs c) h ∧ c.length = h.length ∧ r.length = h.length
  | [], [], [], _ => ⟨[], trivial, rfl, rfl, rfl⟩
  | c :: cs, r :: rs, x :: xs, hb => by
    obtain ⟨h, h1, h2, h3, h4⟩ := inBox_disp hb.2
    refine ⟨(x - c) :: h, ⟨hb.1, h1⟩, ?_, by simp [h3], by simp [h4]⟩
    show x :: xs = ((c : ℝ) + (x - c)) :: addR (nrs cs) h
    rw [← h2]; congr 1; ring
  | [], [], _ :: _, hb => absurd hb (by simp [InBox])
  | [], _ :: _, _, hb => absurd hb (by cases ‹List ℝ› <;> simp [InBox])
  | _ :: _, [], _, hb => absurd hb (by cases ‹List ℝ› <;> simp [InBox])
  | _ :: _, _ :: _, [], hb => absurd hb (by simp [InBox])

/-! ## Signed numbers -/

theorem nat_sub_cast (a b : Nat) : ((a - b : Nat) : ℝ) = max ((a : ℝ) - b) 0 := by
  rcases le_total b a with h | h
  · rw [Nat.cast_sub h, max_eq_left (by have : (b : ℝ) ≤ a := by exact_mod_cast h
                                        linarith)]
  · rw [Nat.sub_eq_zero_of_le h, max_eq_right (by have : (a : ℝ) ≤ b := by exact_mod_cast h
                                                  linarith)]
    norm_num

theorem zabs_eq (z : Z) : (zabs z : ℝ) = |zr z| := by
  show ((z.1 - z.2 + (z.2 - z.1) : Nat) : ℝ) = _
  rw [Nat.cast_add, nat_sub_cast, nat_sub_cast, zr]
  rcases le_total (z.2 : ℝ) z.1 with h | h
  · rw [max_eq_left (by linarith), max_eq_right (by linarith), abs_of_nonneg (by linarith)]; ring
  · rw [max_eq_right (by linarith), max_eq_left (by linarith), abs_of_nonpos (by linarith)]; ring

theorem abs_zr_le (z : Z) : |zr z| ≤ ((z.1 + z.2 : Nat) : ℝ) := by
  rw [zr, Nat.cast_add]
  have := Nat.cast_nonneg (α := ℝ) z.1
  have := Nat.cast_nonneg (α := ℝ) z.2
  exact abs_le.mpr ⟨by linarith, by linarith⟩

@[simp] theorem zr_zmul (a b : Z) : zr (zmul a b) = zr a * zr b := by
  show ((a.1 * b.1 + a.2 * b.2 : Nat) : ℝ) - ((a.1 * b.2 + a.2 * b.1 : Nat) : ℝ) = _
  simp only [zr]; push_cast; ring
@[simp] theorem zr_zadd (a b : Z) : zr (zadd a b) = zr a + zr b := by
  show ((a.1 + b.1 : Nat) : ℝ) - ((a.2 + b.2 : Nat) : ℝ) = _
  simp only [zr]; push_cast; ring

theorem zr_sub (a b : Nat) : zr (a - b, b - a) = a - b := by
  simp only [zr, nat_sub_cast]
  rcases le_total (b : ℝ) a with h | h
  · rw [max_eq_left (by linarith), max_eq_right (by linarith)]; ring
  · rw [max_eq_right (by linarith), max_eq_left (by linarith)]; ring
@[simp] theorem zr_norm (a : Z) : zr (norm a) = zr a := zr_sub a.1 a.2
theorem norm_pos (a : Z) : ((norm a).1 : ℝ) = max (zr a) 0 := by
  show ((a.1 - a.2 : Nat) : ℝ) = _
  rw [nat_sub_cast, zr]
theorem norm_neg (a : Z) : ((norm a).2 : ℝ) = max (-zr a) 0 := by
  show ((a.2 - a.1 : Nat) : ℝ) = _
  rw [nat_sub_cast, zr]; congr 1; ring
theorem sub_parts (a b : Nat) : (((a - b) * (a - b) + (b - a) * (b - a) : Nat) : ℝ) = ((a : ℝ) - b) ^ 2 := by
  push_cast
  rw [nat_sub_cast, nat_sub_cast]
  rcases le_total (b : ℝ) a with h | h
  · rw [max_eq_left (by linarith), max_eq_right (by linarith)]; ring
  · rw [max_eq_right (by linarith), max_eq_left (by linarith)]; ring

/-! ## Vectors -/

@[simp] theorem zrs_nil : zrs [] = [] := rfl
@[simp] theorem zrs_cons (z : Z) (l : List Z) : zrs (z :: l) = zr z :: zrs l := rfl
@[simp] theorem length_zrs (l : List Z) : (zrs l).length = l.length := List.length_map _
@[simp] theorem length_nrs (l : List Nat) : (nrs l).length = l.length := by simp [nrs]

theorem length_addR : ∀ {a b : List ℝ}, a.length = b.length → (addR a b).length = a.length
  | [], _, _ => rfl
  | _ :: _, _ :: _, h => by simp only [addR, List.length_cons]; rw [length_addR (by simpa using h)]
theorem length_subR : ∀ {a b : List ℝ}, a.length = b.length → (subR a b).length = a.length
  | [], _, _ => rfl
  | _ :: _, _ :: _, h => by simp only [subR, List.length_cons]; rw [length_subR (by simpa using h)]

theorem offs_zrs : ∀ (c : List Nat) (v : List Z), zrs (offs c v) = subR (nrs c) (zrs v)
  | [], _ => rfl
  | _ :: _, [] => rfl
  | x :: xs, y :: ys => by
    show zr (x + y.2 - y.1, y.1 - (x + y.2)) :: zrs (offs xs ys) = ((x : ℝ) - zr y) :: subR (nrs xs) (zrs ys)
    rw [offs_zrs xs ys, zr_sub]
    simp only [zr, Nat.cast_add]
    congr 1
    ring

theorem addR_subR : ∀ {c h v : List ℝ}, c.length = h.length → v.length = h.length → subR (addR c h) v = addR (subR c v) h
  | [], [], [], _, _ => rfl
  | c :: cs, h :: hs, v :: vs, h1, h2 => by
    simp only [addR, subR]
    rw [addR_subR (by simpa using h1) (by simpa using h2)]
    congr 1
    ring

theorem zsum_eq : ∀ d : List Z, zr (zsum d) = sumR (zrs d)
  | [] => by simp [zsum, zr, sumR]
  | x :: xs => by
    show zr (zadd x (zsum xs)) = _
    rw [zr_zadd, zsum_eq xs]; rfl

theorem sumSq_eq : ∀ (c : List Nat) (v : List Z), (sumSq (offs c v) : ℝ) = dotR (zrs (offs c v)) (zrs (offs c v))
  | [], _ => by simp [sumSq, offs, dotR]
  | _ :: _, [] => by simp [sumSq, offs, dotR]
  | x :: xs, y :: ys => by
    show (((x + y.2 - y.1) * (x + y.2 - y.1) + (y.1 - (x + y.2)) * (y.1 - (x + y.2)) + sumSq (offs xs ys) : Nat) : ℝ) =
      zr (x + y.2 - y.1, y.1 - (x + y.2)) * zr (x + y.2 - y.1, y.1 - (x + y.2)) + dotR (zrs (offs xs ys)) (zrs (offs xs ys))
    rw [Nat.cast_add, sub_parts, sumSq_eq xs ys, zr_sub]
    ring

theorem grams_eq (m : Nat) (s : Z) : ∀ d : List Z, zrs (grams m s d) = (zrs d).map fun y => m * y - zr s
  | [] => rfl
  | x :: xs => by
    show zr (norm (m * x.1 + s.2, m * x.2 + s.1)) :: zrs (grams m s xs) = _
    rw [zr_norm, grams_eq m s xs]
    simp only [zr, zrs_cons, List.map_cons, List.cons.injEq, and_true]
    push_cast
    ring

theorem dot_eq : ∀ g d : List Z, zr (dot g d) = dotR (zrs g) (zrs d)
  | [], _ => by simp [dot, zr, dotR]
  | _ :: _, [] => by simp [dot, zr, dotR]
  | x :: xs, y :: ys => by
    show zr (zadd (zmul x y) (dot xs ys)) = _
    rw [zr_zadd, zr_zmul, dot_eq xs ys]; rfl

theorem wsum_bound : ∀ {r : List Nat} {h : List ℝ} (g : List Z), Bnd r h → |dotR (zrs g) h| ≤ wsum r g
  | [], [], g, _ => by cases g <;> simp [dotR, wsum]
  | r :: rs, h :: hs, [], _ => by simp [dotR, wsum]
  | r :: rs, h :: hs, y :: ys, hb => by
    show |zr y * h + dotR (zrs ys) hs| ≤ ((r * (y.1 + y.2) + wsum rs ys : Nat) : ℝ)
    have h1 := wsum_bound ys hb.2
    have h2 : |zr y * h| ≤ r * ((y.1 + y.2 : Nat) : ℝ) := by
      rw [abs_mul, mul_comm]
      exact mul_le_mul hb.1 (abs_zr_le y) (abs_nonneg _) (Nat.cast_nonneg _)
    push_cast at h2 ⊢
    exact (abs_add_le _ _).trans (by linarith)

theorem wabs_bound : ∀ {r : List Nat} {h : List ℝ} (g : List Z), Bnd r h → |dotR (zrs g) h| ≤ wabs r g
  | [], [], g, _ => by cases g <;> simp [dotR, wabs]
  | r :: rs, h :: hs, [], _ => by simp [dotR, wabs]
  | r :: rs, h :: hs, y :: ys, hb => by
    show |zr y * h + dotR (zrs ys) hs| ≤ ((r * zabs y + wabs rs ys : Nat) : ℝ)
    have h1 := wabs_bound ys hb.2
    have h2 : |zr y * h| ≤ r * (zabs y : ℝ) := by
      rw [abs_mul, mul_comm, zabs_eq]
      exact mul_le_mul_of_nonneg_right hb.1 (abs_nonneg _)
    push_cast
    exact (abs_add_le _ _).trans (by linarith)

theorem wdist_bound : ∀ {r : List Nat} {h : List ℝ} (b g : List Z), Bnd r h → b.length = h.length → g.length = h.length → dotR (zrs g) h - dotR (zrs b) h ≤ wdist r b g
  | [], [], b, g, _, h1, h2 => by
    rw [List.length_eq_zero_iff.mp h1, List.length_eq_zero_iff.mp h2]; simp [dotR, wdist]
  | r :: rs, h :: hs, x :: xs, y :: ys, hb, h1, h2 => by
    show zr y * h + dotR (zrs ys) hs - (zr x * h + dotR (zrs xs) hs) ≤ ((r * zabs (x.1 + y.2, x.2 + y.1) + wdist rs xs ys : Nat) : ℝ)
    have k := wdist_bound xs ys hb.2 (by simpa using h1) (by simpa using h2)
    have e : zr (x.1 + y.2, x.2 + y.1) = zr x - zr y := by simp only [zr]; push_cast; ring
    have h3 : (zr y - zr x) * h ≤ r * (zabs (x.1 + y.2, x.2 + y.1) : ℝ) := by
      rw [zabs_eq, e, ← abs_neg (zr x - zr y), neg_sub, mul_comm]
      exact (le_abs_self _).trans (by rw [abs_mul]; exact mul_le_mul_of_nonneg_right hb.1 (abs_nonneg _))
    push_cast
    linarith [h3]

theorem sqN_bound : ∀ {r : List Nat} {h : List ℝ}, Bnd r h → dotR h h ≤ sqN r
  | [], [], _ => by simp [dotR, sqN]
  | r :: rs, h :: hs, hb => by
    show h * h + dotR hs hs ≤ ((r * r + sqN rs : Nat) : ℝ)
    have := sqN_bound hb.2
    have h2 : h * h ≤ r * r := by
      rw [← abs_mul_abs_self h]
      exact mul_self_le_mul_self (abs_nonneg _) hb.1
    push_cast
    linarith

theorem dotR_self_nonneg : ∀ h : List ℝ, 0 ≤ dotR h h
  | [] => le_refl _
  | h :: hs => by
    show 0 ≤ h * h + dotR hs hs
    have := dotR_self_nonneg hs
    nlinarith [mul_self_nonneg h]

/-- Cauchy-Schwarz. -/
theorem sum_sq_le : ∀ h : List ℝ, sumR h ^ 2 ≤ h.length * dotR h h
  | [] => by simp [sumR, dotR]
  | h :: hs => by
    show (h + sumR hs) ^ 2 ≤ ((hs.length + 1 : Nat) : ℝ) * (h * h + dotR hs hs)
    have k := sum_sq_le hs
    push_cast
    have hn : (0 : ℝ) ≤ hs.length := Nat.cast_nonneg _
    have h0 := dotR_self_nonneg hs
    -- 2 h S <= n h^2 + S^2 / n; without division
    rcases Nat.eq_zero_or_pos hs.length with h1 | h1
    · rw [List.length_eq_zero_iff.mp h1]; simp [sumR, dotR]; nlinarith [sq_nonneg h]
    · have hp : (0 : ℝ) < hs.length := by exact_mod_cast h1
      have e : 0 ≤ (hs.length * h - sumR hs) ^ 2 := sq_nonneg _
      have : hs.length * (2 * h * sumR hs) ≤ hs.length * (hs.length * h ^ 2 + dotR hs hs) := by nlinarith
      have := le_of_mul_le_mul_left this hp
      nlinarith

theorem dotR_addR : ∀ {g d h : List ℝ}, g.length = h.length → d.length = h.length → dotR g (addR d h) = dotR g d + dotR g h
  | [], [], [], _, _ => by simp [dotR]
  | [], _ :: _, [], _, h2 => by simp at h2
  | [], _ :: _, _ :: _, h1, _ => by simp at h1
  | _ :: _, [], [], h1, _ => by simp at h1
  | _ :: _, [], _ :: _, _, h2 => by simp at h2
  | g :: gs, d :: ds, h :: hs, h1, h2 => by
    simp only [addR, dotR]
    rw [dotR_addR (by simpa using h1) (by simpa using h2)]
    ring
theorem dotR_comm : ∀ a b : List ℝ, dotR a b = dotR b a
  | [], [] => rfl
  | [], _ :: _ => rfl
  | _ :: _, [] => rfl
  | a :: as, b :: bs => by simp only [dotR]; rw [dotR_comm as bs]; ring
theorem sumR_addR : ∀ {d h : List ℝ}, d.length = h.length → sumR (addR d h) = sumR d + sumR h
  | [], [], _ => by simp [sumR, addR]
  | d :: ds, h :: hs, h1 => by
    simp only [addR, sumR]
    rw [sumR_addR (by simpa using h1)]
    ring
theorem dotR_grams (m s : ℝ) : ∀ {d h : List ℝ}, d.length = h.length → dotR (d.map fun y => m * y - s) h = m * dotR d h - s * sumR h
  | [], [], _ => by simp [dotR, sumR]
  | d :: ds, h :: hs, h1 => by
    simp only [List.map_cons, dotR, sumR]
    rw [dotR_grams m s (by simpa using h1)]
    ring

/-- The change of the level. -/
theorem level_add (q : Par) {d h : List ℝ} (hl : d.length = h.length) :
    level q (addR d h) = level q d - (2 * q.t * dotR (d.map fun y => q.m * y - sumR d) h + q.t * (q.m * dotR h h - sumR h ^ 2)) := by
  have h1 : dotR (addR d h) (addR d h) = dotR d d + 2 * dotR d h + dotR h h := by
    rw [dotR_addR (by rw [length_addR hl, hl]) hl, dotR_comm (addR d h) d, dotR_comm (addR d h) h, dotR_addR hl hl, dotR_addR rfl hl, dotR_comm h d]
    ring
  unfold level
  rw [h1, sumR_addR hl, dotR_grams _ _ hl]
  ring

/-! ## One vertex -/

/-- The estimate behind `item`. -/
theorem tangent {p q' A ε κ E K Q : ℝ} (hK0 : 0 ≤ κ) (hK : κ ≤ K) (hE : |ε| ≤ E) (hQ : |q'| ≤ Q) (hA : E + K ≤ A) :
    (p + q') * max (A - (ε + κ)) 0 ^ 4 ≤ p * A ^ 4 + (A ^ 4 * q' - 4 * p * A ^ 3 * ε) + (4 * A ^ 3 * (Q * (E + K) + max (-p) 0 * K) +
      (max p 0 + Q) * ((E + K) * (E + K) * (6 * A ^ 2 + (E + K) * (4 * A + (E + K))))) := by
  obtain ⟨e1, e2⟩ := abs_le.mp hE
  obtain ⟨q1, q2⟩ := abs_le.mp hQ
  have hE0 : 0 ≤ E := (abs_nonneg _).trans hE
  have hQ0 : 0 ≤ Q := (abs_nonneg _).trans hQ
  have hA0 : 0 ≤ A := by linarith
  set δ := ε + κ with hδ
  set D := E + K with hD
  have hD0 : 0 ≤ D := by rw [hD]; linarith
  have hδ1 : |δ| ≤ D := abs_le.mpr ⟨by rw [hD, hδ]; linarith, by rw [hD, hδ]; linarith⟩
  obtain ⟨d1, d2⟩ := abs_le.mp hδ1
  rw [max_eq_left (by linarith : (0 : ℝ) ≤ A - δ)]
  have hA3 : 0 ≤ A ^ 3 := by positivity
  have t1 : -(4 * A ^ 3 * p * κ) ≤ 4 * A ^ 3 * (max (-p) 0 * K) := by
    have : -p * κ ≤ max (-p) 0 * K := mul_le_mul (le_max_left _ _) hK hK0 (le_max_right _ _)
    nlinarith
  have t2 : -(4 * A ^ 3 * (q' * δ)) ≤ 4 * A ^ 3 * (Q * D) := by
    have : |q' * δ| ≤ Q * D := by rw [abs_mul]; exact mul_le_mul hQ hδ1 (abs_nonneg _) hQ0
    have := (abs_le.mp this).1
    nlinarith
  have t3 : (p + q') * (δ ^ 2 * (6 * A ^ 2 - 4 * A * δ + δ ^ 2)) ≤ (max p 0 + Q) * (D * D * (6 * A ^ 2 + D * (4 * A + D))) := by
    have a1 : p + q' ≤ max p 0 + Q := add_le_add (le_max_left _ _) q2
    have a2 : δ ^ 2 ≤ D * D := by rw [← sq_abs, sq]; exact mul_self_le_mul_self (abs_nonneg _) hδ1
    have a3 : 6 * A ^ 2 - 4 * A * δ + δ ^ 2 ≤ 6 * A ^ 2 + D * (4 * A + D) := by nlinarith
    have a4 : 0 ≤ 6 * A ^ 2 - 4 * A * δ + δ ^ 2 := by nlinarith [sq_nonneg (2 * A - δ)]
    have a5 : 0 ≤ max p 0 + Q := by have := le_max_right p 0; linarith
    refine mul_le_mul a1 ?_ (mul_nonneg (sq_nonneg _) a4) a5
    exact mul_le_mul a2 a3 a4 (mul_nonneg hD0 hD0)
  have e : (p + q') * (A - δ) ^ 4 = p * A ^ 4 + (A ^ 4 * q' - 4 * p * A ^ 3 * ε) + (-(4 * A ^ 3 * p * κ)) + (-(4 * A ^ 3 * (q' * δ))) + (p + q') * (δ ^ 2 * (6 * A ^ 2 - 4 * A * δ + δ ^ 2)) := by
    rw [hδ]; ring
  rw [e]
  linarith

theorem comb_eq (k x y : Nat) (P : Z) : ∀ {a b : List Z} {h : List ℝ}, a.length = h.length → b.length = h.length →
    dotR (zrs (comb k x y P a b)) h = k * (x * dotR (zrs a) h - y * zr P * dotR (zrs b) h)
  | [], [], [], _, _ => by simp [comb, dotR]
  | [], _ :: _, [], _, h2 => by simp at h2
  | [], _ :: _, _ :: _, h1, _ => by simp at h1
  | _ :: _, [], [], h1, _ => by simp at h1
  | _ :: _, [], _ :: _, _, h2 => by simp at h2
  | a :: as, b :: bs, h :: hs, h1, h2 => by
    show zr (k * (x * a.1 + y * (P.1 * b.2 + P.2 * b.1)), k * (x * a.2 + y * (P.1 * b.1 + P.2 * b.2))) * h + dotR (zrs (comb k x y P as bs)) hs = _
    rw [comb_eq k x y P (by simpa using h1) (by simpa using h2)]
    simp only [zr, zrs_cons, dotR]
    push_cast
    ring

theorem length_offs : ∀ {c : List Nat} {v : List Z}, c.length = v.length → (offs c v).length = c.length
  | [], _, _ => rfl
  | x :: xs, y :: ys, h => by
    show (offs xs ys).length + 1 = xs.length + 1
    rw [length_offs (by simpa using h)]
theorem length_grams (m : Nat) (s : Z) : ∀ d : List Z, (grams m s d).length = d.length
  | [] => rfl
  | x :: xs => by
    show (grams m s xs).length + 1 = _
    rw [length_grams m s xs]; rfl

theorem gram_eq (q : Par) (d : List Z) : zrs (gram q d) = (zrs d).map fun y => q.m * y - sumR (zrs d) := by
  unfold gram; rw [grams_eq, zr_norm, zsum_eq]

theorem level_mid (q : Par) (c : List Nat) (v : List Z) : level q (zrs (offs c v)) = (lpos q (offs c v) : ℝ) - lneg q (offs c v) := by
  have e1 : (lpos q (offs c v) : ℝ) = q.T + q.t * sumR (zrs (offs c v)) ^ 2 := by
    rw [← zsum_eq]
    set s := zsum (offs c v)
    show ((q.T + q.t * ((s.1 - s.2) * (s.1 - s.2) + (s.2 - s.1) * (s.2 - s.1)) : Nat) : ℝ) = _
    rw [Nat.cast_add, Nat.cast_mul, sub_parts, zr]
  have e2 : (lneg q (offs c v) : ℝ) = q.t * (q.m * dotR (zrs (offs c v)) (zrs (offs c v))) := by
    rw [← sumSq_eq]
    show ((q.t * (q.m * sumSq (offs c v)) : Nat) : ℝ) = _
    push_cast; ring
  rw [e1, e2, level]; ring

/-- What is known of the level at a point of the box. -/
theorem level_box {q : Par} {c r : List Nat} {v : List Z} {h : List ℝ} (hb : Bnd r h) (hc : c.length = h.length) (hv : v.length = h.length) (hm : h.length ≤ q.m) :
    ∃ ε κ : ℝ, level q (subR (addR (nrs c) h) (zrs v)) = (lpos q (offs c v) : ℝ) - lneg q (offs c v) - (ε + κ) ∧ ε = 2 * q.t * dotR (zrs (gram q (offs c v))) h ∧
      0 ≤ κ ∧ κ ≤ kap q r ∧ |ε| ≤ (devi q r (offs c v) : ℝ) - kap q r := by
  have hd : (zrs (offs c v)).length = h.length := by rw [length_zrs, length_offs (by rw [hc, hv]), hc]
  refine ⟨2 * q.t * dotR (zrs (gram q (offs c v))) h, q.t * (q.m * dotR h h - sumR h ^ 2), ?_, rfl, ?_, ?_, ?_⟩
  · rw [addR_subR (by simpa using hc) (by simpa using hv), ← offs_zrs, level_add q hd, level_mid, gram_eq]
  · refine mul_nonneg (Nat.cast_nonneg _) ?_
    have := sum_sq_le h
    have h2 : (h.length : ℝ) * dotR h h ≤ q.m * dotR h h := mul_le_mul_of_nonneg_right (by exact_mod_cast hm) (dotR_self_nonneg h)
    linarith
  · show _ ≤ ((q.t * q.m * sqN r : Nat) : ℝ)
    have h1 := sqN_bound hb
    have h2 : (q.m : ℝ) * dotR h h - sumR h ^ 2 ≤ q.m * sqN r := by
      have := mul_le_mul_of_nonneg_left h1 (Nat.cast_nonneg (α := ℝ) q.m)
      nlinarith [sq_nonneg (sumR h)]
    push_cast
    rw [mul_assoc]
    exact mul_le_mul_of_nonneg_left h2 (Nat.cast_nonneg _)
  · have e : (devi q r (offs c v) : ℝ) = 2 * q.t * wsum r (gram q (offs c v)) + kap q r := by
      show ((2 * q.t * wsum r (gram q (offs c v)) + kap q r : Nat) : ℝ) = _
      push_cast; ring
    rw [e, abs_mul, abs_of_nonneg (by positivity)]
    have := mul_le_mul_of_nonneg_left (wsum_bound (gram q (offs c v)) hb) (by positivity : (0 : ℝ) ≤ 2 * q.t)
    linarith

theorem ramp_box {c : List Nat} {v g : List Z} {h : List ℝ} (hc : c.length = h.length) (hv : v.length = h.length) (hg : g.length = h.length) :
    dotR (zrs g) (subR (addR (nrs c) h) (zrs v)) = zr (dot g (offs c v)) + dotR (zrs g) h := by
  have hd : (zrs (offs c v)).length = h.length := by rw [length_zrs, length_offs (by rw [hc, hv]), hc]
  rw [addR_subR (by simpa using hc) (by simpa using hv), ← offs_zrs, dotR_addR (by simpa using hg) hd, dot_eq]

/-- Too far away: nothing is added. -/
theorem contrib_far {q : Par} {c r : List Nat} {v g : List Z} {h : List ℝ} (hb : Bnd r h) (hc : c.length = h.length) (hv : v.length = h.length) (hm : h.length ≤ q.m)
    (hf : lpos q (offs c v) + devi q r (offs c v) ≤ lneg q (offs c v)) : contrib q v g (addR (nrs c) h) = 0 := by
  obtain ⟨ε, κ, e1, _, e3, e4, e5⟩ := level_box (q := q) hb hc hv hm
  have hf' : (lpos q (offs c v) : ℝ) + devi q r (offs c v) ≤ lneg q (offs c v) := by exact_mod_cast hf
  have := abs_le.mp e5
  unfold contrib
  rw [e1, max_eq_right (by linarith [this.1])]
  ring

theorem contrib_item {q : Par} {c r : List Nat} {v g : List Z} {h : List ℝ} (hb : Bnd r h) (hc : c.length = h.length) (hv : v.length = h.length) (hg : g.length = h.length) (hm : h.length ≤ q.m)
    (hf : lneg q (offs c v) + devi q r (offs c v) ≤ lpos q (offs c v)) :
    contrib q v g (addR (nrs c) h) ≤ zr (item q r (lpos q (offs c v) - lneg q (offs c v)) (devi q r (offs c v)) (kap q r) (offs c v) (gram q (offs c v)) g).val +
      dotR (zrs (item q r (lpos q (offs c v) - lneg q (offs c v)) (devi q r (offs c v)) (kap q r) (offs c v) (gram q (offs c v)) g).lin) h := by
  obtain ⟨ε, κ, e1, e2, e3, e4, e5⟩ := level_box (q := q) hb hc hv hm
  have hA : ((lpos q (offs c v) - lneg q (offs c v) : Nat) : ℝ) = (lpos q (offs c v) : ℝ) - lneg q (offs c v) := Nat.cast_sub (by omega)
  have hf' : (lneg q (offs c v) : ℝ) + devi q r (offs c v) ≤ lpos q (offs c v) := by exact_mod_cast hf
  have hge : (gram q (offs c v)).length = h.length := by unfold gram; rw [length_grams, length_offs (by rw [hc, hv]), hc]
  set A := lpos q (offs c v) - lneg q (offs c v) with hAd
  set dv := devi q r (offs c v) with hdv
  set d := offs c v with hd
  set P := norm (dot g d) with hP
  unfold contrib
  rw [ramp_box hc hv hg, e1, ← hA]
  refine (tangent (E := (dv : ℝ) - kap q r) (K := kap q r) (Q := wsum r g) e3 e4 e5 (wsum_bound g hb) (by rw [hA]; linarith)).trans ?_
  have l1 : dotR (zrs (item q r A dv (kap q r) d (gram q d) g).lin) h = (A : ℝ) ^ 4 * dotR (zrs g) h - 4 * zr (dot g d) * (A : ℝ) ^ 3 * ε := by
    show dotR (zrs (comb (A * (A * A)) A (8 * q.t) P g (gram q d))) h = _
    rw [comb_eq _ _ _ _ hg hge, e2, hP, zr_norm]
    push_cast
    ring
  have l2 : zr (item q r A dv (kap q r) d (gram q d) g).val = zr (dot g d) * (A : ℝ) ^ 4 + (4 * (A : ℝ) ^ 3 * (wsum r g * dv + max (-zr (dot g d)) 0 * kap q r) +
      (max (zr (dot g d)) 0 + wsum r g) * (dv * dv * (6 * (A : ℝ) ^ 2 + dv * (4 * A + dv)))) := by
    show ((P.1 * (A * A * (A * A)) + (4 * (A * (A * A)) * (wsum r g * dv + P.2 * kap q r) + (P.1 + wsum r g) * (dv * dv * (6 * (A * A) + dv * (4 * A + dv)))) : Nat) : ℝ) -
      ((P.2 * (A * A * (A * A)) : Nat) : ℝ) = _
    have p1 : (P.1 : ℝ) = max (zr (dot g d)) 0 := norm_pos _
    have p2 : (P.2 : ℝ) = max (-zr (dot g d)) 0 := norm_neg _
    have p3 : zr (dot g d) = (P.1 : ℝ) - P.2 := by rw [← zr_norm, ← hP, zr]
    push_cast
    rw [← p1, ← p2, p3]
    ring
  rw [l1, l2]
  have : (dv : ℝ) - kap q r + kap q r = dv := by ring
  rw [this]
  linarith

theorem crude_mem {r : List Nat} {w : Nat} {d : List Z} {g : List Z} : ∀ {cs : List (List Z)}, g ∈ cs →
    (norm (dot g d)).1 + wsum r g ≤ (List.rec 0 (fun g _ ih => (fun x => cond (Nat.ble x ih) ih x) (Nat.add (norm (dot g d)).1 (wsum r g))) cs : Nat)
  | c :: cs, h => by
    show _ ≤ cond (Nat.ble ((norm (dot c d)).1 + wsum r c) _) _ _
    set ih : Nat := List.rec 0 (fun g _ ih => (fun x => cond (Nat.ble x ih) ih x) (Nat.add (norm (dot g d)).1 (wsum r g))) cs
    have hx : ∀ x : Nat, x ≤ cond (Nat.ble x ih) ih x ∧ ih ≤ cond (Nat.ble x ih) ih x := by
      intro x
      rcases hb : Nat.ble x ih with _ | _
      · have : ¬ x ≤ ih := fun h => by rw [Nat.ble_eq_true_of_le h] at hb; cases hb
        simp only [cond_false]; omega
      · have := Nat.le_of_ble_eq_true hb
        simp only [cond_true]; omega
    rcases List.mem_cons.mp h with rfl | h
    · exact (hx _).1
    · exact (crude_mem (w := w) h).trans (hx _).2

theorem contrib_crude {q : Par} {c r : List Nat} {v g : List Z} {cs : List (List Z)} {h : List ℝ} (hb : Bnd r h) (hc : c.length = h.length) (hv : v.length = h.length) (hg : g.length = h.length)
    (hm : h.length ≤ q.m) (hcs : g ∈ cs) :
    contrib q v g (addR (nrs c) h) ≤ crude r (lpos q (offs c v) + devi q r (offs c v) - lneg q (offs c v)) (offs c v) cs := by
  obtain ⟨ε, κ, e1, e2, e3, e4, e5⟩ := level_box (q := q) hb hc hv hm
  set d := offs c v
  have he := abs_le.mp e5
  set w := lpos q d + devi q r d - lneg q d with hw
  have hwr : (w : ℝ) = max ((lpos q d : ℝ) + devi q r d - lneg q d) 0 := by rw [hw, nat_sub_cast]; push_cast; rfl
  have hu : max (level q (subR (addR (nrs c) h) (zrs v))) 0 ≤ w := by
    rw [hwr, e1]
    exact max_le_max (by linarith [he.1]) le_rfl
  have hu0 : 0 ≤ max (level q (subR (addR (nrs c) h) (zrs v))) 0 := le_max_right _ _
  set X : Nat := List.rec 0 (fun g _ ih => (fun x => cond (Nat.ble x ih) ih x) (Nat.add (norm (dot g d)).1 (wsum r g))) cs with hX
  have hx : dotR (zrs g) (subR (addR (nrs c) h) (zrs v)) ≤ X := by
    rw [ramp_box hc hv hg]
    have h1 : (((norm (dot g d)).1 + wsum r g : Nat) : ℝ) ≤ X := by exact_mod_cast crude_mem (w := w) hcs
    have h2 := (abs_le.mp (wsum_bound g hb)).2
    have h3 : zr (dot g d) ≤ (norm (dot g d)).1 := by rw [norm_pos]; exact le_max_left _ _
    push_cast at h1
    linarith
  show _ ≤ ((w * w * (w * w) * X : Nat) : ℝ)
  unfold contrib
  have h4 : max (level q (subR (addR (nrs c) h) (zrs v))) 0 ^ 4 ≤ (w : ℝ) ^ 4 := pow_le_pow_left₀ hu0 hu 4
  have h5 : 0 ≤ max (level q (subR (addR (nrs c) h) (zrs v))) 0 ^ 4 := by positivity
  have hX0 : (0 : ℝ) ≤ X := Nat.cast_nonneg _
  calc _ ≤ (X : ℝ) * max (level q (subR (addR (nrs c) h) (zrs v))) 0 ^ 4 := mul_le_mul_of_nonneg_right hx h5
    _ ≤ X * (w : ℝ) ^ 4 := mul_le_mul_of_nonneg_left h4 hX0
    _ = _ := by push_cast; ring

/-! ## The checker -/

theorem ble_iff {a b : Nat} : Nat.ble a b = true ↔ a ≤ b := ⟨Nat.le_of_ble_eq_true, Nat.ble_eq_true_of_le⟩

theorem cond_eq {b : Bool} {x y : Bool} (h : cond b x y = true) : (b = true ∧ x = true) ∨ (b = false ∧ y = true) := by cases b <;> simp_all

/-- All choices of upper bounds. -/
def ISat (q : Par) (h : List ℝ) : List (List Item) → ℝ → Prop
  | [], a => a ≤ q.B
  | cs :: its, a => ∀ i ∈ cs, ISat q h its (a + zr i.val + dotR (zrs i.lin) h)

theorem ISat.mono {q : Par} {h : List ℝ} : ∀ {its : List (List Item)} {a b : ℝ}, ISat q h its a → b ≤ a → ISat q h its b
  | [], _, _, k, hb => le_trans hb k
  | _ :: _, _, _, k, hb => fun i hi => (k i hi).mono (by linarith)

theorem zadds_dot : ∀ {a b : List Z} {h : List ℝ}, a.length = h.length → b.length = h.length → (zadds a b).length = h.length ∧ dotR (zrs (zadds a b)) h = dotR (zrs a) h + dotR (zrs b) h
  | [], [], [], _, _ => by simp [zadds, dotR]
  | [], _ :: _, [], _, h2 => by simp at h2
  | [], _ :: _, _ :: _, h1, _ => by simp at h1
  | _ :: _, [], [], h1, _ => by simp at h1
  | _ :: _, [], _ :: _, _, h2 => by simp at h2
  | x :: xs, y :: ys, h :: hs, h1, h2 => by
    obtain ⟨k1, k2⟩ := zadds_dot (a := xs) (b := ys) (h := hs) (by simpa using h1) (by simpa using h2)
    constructor
    · show (zadds xs ys).length + 1 = hs.length + 1
      rw [k1]
    · show zr (zadd x y) * h + dotR (zrs (zadds xs ys)) hs = zr x * h + dotR (zrs xs) hs + (zr y * h + dotR (zrs ys) hs)
      rw [k2, zr_zadd]; ring

theorem leaf_sound {q : Par} {r : List Nat} {h : List ℝ} (hb : Bnd r h) : ∀ (its : List (List Item)) (v : Z) (l : List Z), l.length = h.length → (∀ cs ∈ its, ∀ i ∈ cs, i.lin.length = h.length) →
    leaf q r its v l = true → ISat q h its (zr v + dotR (zrs l) h)
  | [], v, l, _, _, hc => by
    have h1 : v.1 + wabs r l ≤ q.B + v.2 := ble_iff.mp hc
    have h2 : (v.1 : ℝ) + wabs r l ≤ q.B + v.2 := by exact_mod_cast h1
    have h3 := (abs_le.mp (wabs_bound l hb)).2
    show zr v + dotR (zrs l) h ≤ q.B
    rw [zr]; linarith
  | cs :: its, v, l, hl, hi, hc => by
    have key : ∀ cs' : List Item, (∀ i ∈ cs', i.lin.length = h.length) →
        (List.rec true (fun i _ rest => cond (leaf q r its (zadd v i.val) (zadds l i.lin)) rest false) cs' : Bool) = true →
        ∀ i ∈ cs', ISat q h its (zr v + dotR (zrs l) h + zr i.val + dotR (zrs i.lin) h) := by
      intro cs'
      induction cs' with
      | nil => intro _ _ i hi; cases hi
      | cons j js ih =>
        intro hlen hcs i hmem
        rcases cond_eq hcs with ⟨g1, g2⟩ | ⟨_, g2⟩
        · rcases List.mem_cons.mp hmem with rfl | hmem
          · obtain ⟨z1, z2⟩ := zadds_dot hl (hlen i (List.mem_cons_self ..))
            have := leaf_sound hb its _ _ z1 (fun cs hcs => hi cs (List.mem_cons_of_mem _ hcs)) g1
            rw [zr_zadd, z2] at this
            refine this.mono (by linarith)
          · exact ih (fun k hk => hlen k (List.mem_cons_of_mem _ hk)) g2 i hmem
        · cases g2
    exact key cs (hi cs (List.mem_cons_self ..)) hc

theorem length_comb (k x y : Nat) (P : Z) : ∀ {a b : List Z}, a.length = b.length → (comb k x y P a b).length = a.length
  | [], _, _ => rfl
  | a :: as, b :: bs, h => by
    show (comb k x y P as bs).length + 1 = as.length + 1
    rw [length_comb k x y P (by simpa using h)]

theorem mem_items {q : Par} {r : List Nat} {A dev ka : Nat} {d e : List Z} : ∀ {cs : List (List Z)} {i : Item}, i ∈ items q r A dev ka d e cs ↔ ∃ g ∈ cs, i = item q r A dev ka d e g
  | [], i => by simp [items]
  | c :: cs, i => by
    show i ∈ item q r A dev ka d e c :: items q r A dev ka d e cs ↔ _
    rw [List.mem_cons, mem_items (cs := cs)]
    simp

theorem meas_sound {q : Par} {c r : List Nat} {h : List ℝ} (hb : Bnd r h) (hc : c.length = h.length) (hm : h.length ≤ q.m) : ∀ (L : St) (k : Nat → List (List Item) → Bool), Wf h.length L →
    meas q c r L k = true → ∃ a its, k a its = true ∧ (∀ cs ∈ its, ∀ i ∈ cs, i.lin.length = h.length) ∧ ∀ acc, ISat q h its (acc + a) → Sat q (addR (nrs c) h) L acc
  | [], k, _, hk => by
    refine ⟨0, [], hk, fun cs hcs => (List.not_mem_nil hcs).elim, fun acc hi => ?_⟩
    show acc ≤ q.B
    have : acc + ((0 : Nat) : ℝ) ≤ q.B := hi
    simpa using this
  | x :: L, k, hw, hk => by
    have hw' : Wf h.length L := fun p hp => hw p (List.mem_cons_of_mem _ hp)
    obtain ⟨hv, hg⟩ := hw x (List.mem_cons_self ..)
    rcases cond_eq hk with ⟨g1, g2⟩ | ⟨_, g2⟩
    · obtain ⟨a, its, s1, s2, s3⟩ := meas_sound hb hc hm L k hw' g2
      refine ⟨a, its, s1, s2, fun acc hi g _ => ?_⟩
      rw [contrib_far hb hc hv hm (ble_iff.mp g1), add_zero]
      exact s3 acc hi
    · rcases cond_eq g2 with ⟨g3, g4⟩ | ⟨_, g4⟩
      · obtain ⟨a, its, s1, s2, s3⟩ := meas_sound hb hc hm L _ hw' g4
        refine ⟨a, _, s1, ?_, fun acc hi g hgm => ?_⟩
        · intro cs hcs i hi
          rcases List.mem_cons.mp hcs with rfl | hcs
          · obtain ⟨g, hgm, rfl⟩ := mem_items.mp hi
            show (comb _ _ _ _ g _).length = _
            rw [length_comb, hg g hgm]
            unfold gram
            rw [hg g hgm, length_grams, length_offs (by rw [hc, hv]), hc]
          · exact s2 cs hcs i hi
        · have := hi _ (mem_items.mpr ⟨g, hgm, rfl⟩)
          refine (s3 _ (this.mono ?_))
          have := contrib_item hb hc hv (hg g hgm) hm (ble_iff.mp g3)
          simp only [Nat.sub_eq] at *
          linarith
      · obtain ⟨a, its, s1, s2, s3⟩ := meas_sound hb hc hm L _ hw' g4
        refine ⟨_, its, s1, s2, fun acc hi g hgm => s3 _ (hi.mono ?_)⟩
        have := contrib_crude hb hc hv (hg g hgm) hm hgm
        simp only [Nat.add_eq, Nat.sub_eq, Nat.cast_add] at *
        linarith

theorem best_sound : ∀ {d : List Z} (cs : List (List Z)) (b : List Z) (k : List Z → Bool), best d cs b k = true → ∃ b' ∈ b :: cs, k b' = true
  | _, [], b, k, h => ⟨b, List.mem_cons_self .., h⟩
  | d, g :: gs, b, k, h => by
    rcases cond_eq h with ⟨_, h⟩ | ⟨_, h⟩
    · obtain ⟨b', h1, h2⟩ := best_sound gs b k h
      refine ⟨b', ?_, h2⟩
      rcases List.mem_cons.mp h1 with rfl | h1
      · exact List.mem_cons_self ..
      · exact List.mem_cons_of_mem _ (List.mem_cons_of_mem _ h1)
    · obtain ⟨b', h1, h2⟩ := best_sound gs g k h
      exact ⟨b', List.mem_cons_of_mem _ h1, h2⟩

theorem keep_sound {r : List Nat} {b d : List Z} : ∀ (cs : List (List Z)) (k : List (List Z) → Bool), keep r b d cs k = true →
    ∃ cs', k cs' = true ∧ (∀ g ∈ cs', g ∈ cs) ∧ ∀ g ∈ cs, g ∈ cs' ∨ (dot g d).1 + (dot b d).2 + wdist r b g ≤ (dot b d).1 + (dot g d).2
  | [], k, h => ⟨[], h, fun g hg => hg, fun g hg => by cases hg⟩
  | c :: cs, k, h => by
    rcases cond_eq h with ⟨h1, h2⟩ | ⟨h1, h2⟩
    · obtain ⟨cs', a1, a2, a3⟩ := keep_sound cs k h2
      refine ⟨cs', a1, fun g hg => List.mem_cons_of_mem _ (a2 g hg), fun g hg => ?_⟩
      rcases List.mem_cons.mp hg with rfl | hg
      · exact Or.inr (ble_iff.mp h1)
      · exact a3 g hg
    · obtain ⟨cs', a1, a2, a3⟩ := keep_sound cs _ h2
      refine ⟨c :: cs', a1, fun g hg => ?_, fun g hg => ?_⟩
      · rcases List.mem_cons.mp hg with rfl | hg
        · exact List.mem_cons_self ..
        · exact List.mem_cons_of_mem _ (a2 g hg)
      · rcases List.mem_cons.mp hg with rfl | hg
        · exact Or.inl (List.mem_cons_self ..)
        · exact (a3 g hg).imp (List.mem_cons_of_mem _) id

theorem contrib_le {q : Par} {c r : List Nat} {v b g : List Z} {h : List ℝ} (hb : Bnd r h) (hc : c.length = h.length) (hv : v.length = h.length) (hbl : b.length = h.length) (hg : g.length = h.length)
    (hd : (dot g (offs c v)).1 + (dot b (offs c v)).2 + wdist r b g ≤ (dot b (offs c v)).1 + (dot g (offs c v)).2) : contrib q v g (addR (nrs c) h) ≤ contrib q v b (addR (nrs c) h) := by
  unfold contrib
  refine mul_le_mul_of_nonneg_right ?_ (by positivity)
  rw [ramp_box hc hv hg, ramp_box hc hv hbl]
  have h1 := wdist_bound b g hb hbl hg
  have h2 : ((dot g (offs c v)).1 : ℝ) + (dot b (offs c v)).2 + wdist r b g ≤ (dot b (offs c v)).1 + (dot g (offs c v)).2 := by exact_mod_cast hd
  simp only [zr]
  linarith

theorem refine_sound {q : Par} {c r : List Nat} {n : Nat} (hc : c.length = n) (hm : n ≤ q.m) : ∀ (L : St) (k : St → Bool), Wf n L → refine q c r L k = true →
    ∃ L', k L' = true ∧ Wf n L' ∧ ∀ h : List ℝ, Bnd r h → h.length = n → ∀ acc, Sat q (addR (nrs c) h) L' acc → Sat q (addR (nrs c) h) L acc
  | [], k, hw, hk => ⟨[], hk, hw, fun h _ _ acc hs => hs⟩
  | x :: L, k, hw, hk => by
    have hw' : Wf n L := fun p hp => hw p (List.mem_cons_of_mem _ hp)
    obtain ⟨hv, hg⟩ := hw x (List.mem_cons_self ..)
    rcases cond_eq hk with ⟨g1, g2⟩ | ⟨_, g2⟩
    · obtain ⟨L', a1, a2, a3⟩ := refine_sound hc hm L k hw' g2
      refine ⟨L', a1, a2, fun h hb hn acc hs g _ => ?_⟩
      rw [contrib_far hb (by rw [hc, hn]) (by rw [hv, hn]) (by rw [hn]; exact hm) (ble_iff.mp g1), add_zero]
      exact a3 h hb hn acc hs
    · obtain ⟨v, cs⟩ := x
      cases cs with
      | nil =>
        obtain ⟨L', a1, a2, a3⟩ := refine_sound hc hm L k hw' g2
        exact ⟨L', a1, a2, fun h _ _ acc _ g hg => by cases hg⟩
      | cons g0 gs =>
        obtain ⟨b, hbm, h2⟩ := best_sound gs g0 _ g2
        obtain ⟨cs', h3, h4, h5⟩ := keep_sound (g0 :: gs) _ h2
        obtain ⟨L', a1, a2, a3⟩ := refine_sound hc hm L _ hw' h3
        refine ⟨_, a1, ?_, fun h hb hn acc hs g hgm => ?_⟩
        · intro p hp
          rcases List.mem_cons.mp hp with rfl | hp
          · refine ⟨hv, fun g hgm => ?_⟩
            rcases List.mem_cons.mp hgm with rfl | hgm
            · exact hg _ hbm
            · exact hg _ (h4 g hgm)
          · exact a2 p hp
        · rcases h5 g hgm with hk | hk
          · exact a3 h hb hn _ (hs g (List.mem_cons_of_mem _ hk))
          · refine a3 h hb hn _ ((hs b (List.mem_cons_self ..)).mono ?_)
            have := contrib_le (q := q) hb (by rw [hc, hn]) (by rw [hv, hn]) (by rw [hn]; exact hg b hbm) (by rw [hn]; exact hg g hgm) hk
            linarith

theorem split_sound : ∀ (k : Nat) (c r : List Nat) (f : List Nat → List Nat → List Nat → Bool), split k c r f = true →
    ∃ a b h, f a b h = true ∧ ∀ x, InBox c r x → InBox a h x ∨ InBox b h x
  | 0, [], _, _, h => by cases h
  | 0, _ :: _, [], _, h => by cases h
  | 0, x :: xs, p :: ps, f, h => by
    have h' : cond (Nat.beq (p / 2 + p / 2) p) (cond (Nat.ble (p / 2) x) (f ((x - p / 2) :: xs) ((x + p / 2) :: xs) ((p / 2) :: ps)) false) false = true := h
    rcases cond_eq h' with ⟨h1, h2⟩ | ⟨_, h2⟩
    · rcases cond_eq h2 with ⟨h3, h4⟩ | ⟨_, h4⟩
      · refine ⟨_, _, _, h4, fun y hy => ?_⟩
        have e1 : p / 2 + p / 2 = p := Nat.eq_of_beq_eq_true h1
        have e2 : p / 2 ≤ x := ble_iff.mp h3
        generalize p / 2 = s at *
        cases y with
        | nil => exact absurd hy (by simp [InBox])
        | cons y ys =>
          obtain ⟨k1, k2⟩ := hy
          have hs : (p : ℝ) = s + s := by rw [← e1]; push_cast; ring
          rw [hs] at k1
          have := abs_le.mp k1
          have hc : ((x - s : Nat) : ℝ) = x - s := Nat.cast_sub e2
          rcases le_total y (x : ℝ) with hle | hle
          · exact Or.inl ⟨by rw [hc]; exact abs_le.mpr ⟨by linarith, by linarith⟩, k2⟩
          · exact Or.inr ⟨by push_cast; exact abs_le.mpr ⟨by linarith, by linarith⟩, k2⟩
      · cases h4
    · cases h2
  | k + 1, [], _, _, h => by cases h
  | k + 1, _ :: _, [], _, h => by cases h
  | k + 1, x :: xs, p :: ps, f, h => by
    obtain ⟨a, b, h', e1, e2⟩ := split_sound k xs ps _ h
    refine ⟨_, _, _, e1, fun y hy => ?_⟩
    cases y with
    | nil => exact absurd hy (by simp [InBox])
    | cons y ys => exact (e2 ys hy.2).imp (fun k => ⟨hy.1, k⟩) fun k => ⟨hy.1, k⟩

/-- Sorted downwards. -/
def Down : List ℝ → Prop
  | x :: y :: l => y ≤ x ∧ Down (y :: l)
  | _ => True

theorem unsorted_sound : ∀ {c r : List Nat} {x : List ℝ}, InBox c r x → unsorted c r = true → ¬ Down x
  | [], _, _, _, h => by cases h
  | [_], [], _, _, h => by cases h
  | [_], _ :: _, _, _, h => by cases h
  | _ :: _ :: _, [], _, _, h => by cases h
  | _ :: _ :: _, [_], _, _, h => by cases h
  | c :: c' :: cs, r :: r' :: rs, x, hb, h => by
    cases x with
    | nil => exact absurd hb (by simp [InBox])
    | cons x xs =>
      cases xs with
      | nil => exact absurd hb.2 (by simp [InBox])
      | cons x' xs =>
        have h' : cond (Nat.ble c' (c + (r + r'))) (unsorted (c' :: cs) (r' :: rs)) true = true := h
        intro hd
        rcases cond_eq h' with ⟨_, h2⟩ | ⟨h1, _⟩
        · exact unsorted_sound hb.2 h2 hd.2
        · have : ¬ c' ≤ c + (r + r') := fun h => by rw [ble_iff.mpr h] at h1; cases h1
          have h3 : (c : ℝ) + (r + r') < c' := by exact_mod_cast Nat.lt_of_not_le this
          have k1 := abs_le.mp hb.1
          have k2 := abs_le.mp hb.2.1
          linarith [hd.1, k1.2, k2.1]

theorem sum_box : ∀ {c r : List Nat} {x : List ℝ}, InBox c r x → (sumN c : ℝ) - sumN r ≤ sumR x
  | [], [], [], _ => by simp [sumN, sumR]
  | c :: cs, r :: rs, x :: xs, hb => by
    have h1 := sum_box hb.2
    have h2 := (abs_le.mp hb.1).1
    show ((c + sumN cs : Nat) : ℝ) - ((r + sumN rs : Nat) : ℝ) ≤ x + sumR xs
    push_cast
    linarith
  | [], [], _ :: _, hb => absurd hb (by simp [InBox])
  | [], _ :: _, _, hb => absurd hb (by cases ‹List ℝ› <;> simp [InBox])
  | _ :: _, [], _, hb => absurd hb (by cases ‹List ℝ› <;> simp [InBox])
  | _ :: _, _ :: _, [], hb => absurd hb (by simp [InBox])

theorem beyond_sound {H : Nat} {c r : List Nat} {x : List ℝ} (hb : InBox c r x) (h : beyond H c r = true) : (H : ℝ) < 2 * sumR x := by
  have h1 : H + 2 * sumN r < 2 * sumN c := by
    have h' : Nat.ble (Nat.succ (H + 2 * sumN r)) (2 * sumN c) = true := h
    exact ble_iff.mp h'
  have h2 : (H : ℝ) + 2 * sumN r < 2 * sumN c := by exact_mod_cast h1
  have := sum_box hb
  linarith

/-- **The checker is right**: on the part of the box where the coordinates are sorted downwards and their sum is at most half of `H`, no choice of ramps exceeds the bound. -/
theorem check_sound {q : Par} : ∀ (t : Tree) (c r : List Nat) (L : St), Wf c.length L → c.length ≤ q.m → check q t c r L = true →
    ∀ x, InBox c r x → Down x → 2 * sumR x ≤ q.H → Sat q x L 0
  | .out, c, r, L, _, _, h, x, hb, hd, hs => by
    rcases cond_eq (h : cond (unsorted c r) true (beyond q.H c r) = true) with ⟨h1, _⟩ | ⟨_, h1⟩
    · exact absurd hd (unsorted_sound hb h1)
    · exact absurd hs (not_le.mpr (beyond_sound hb h1))
  | .leaf, c, r, L, hw, hm, h, x, hb, _, _ => by
    obtain ⟨d, d1, d2, d3, d4⟩ := inBox_disp hb
    obtain ⟨a, its, s1, s2, s3⟩ := meas_sound d1 d3 (by rw [← d3]; exact hm) L _ (by rw [← d3]; exact hw) h
    have hz : ∀ (c : List Nat) (d : List ℝ), c.length = d.length → (zeros c).length = d.length ∧ dotR (zrs (zeros c)) d = 0 := by
      intro c
      induction c with
      | nil => intro d hl; cases d <;> simp_all [zeros, dotR]
      | cons y ys ih =>
        intro d hl
        cases d with
        | nil => simp at hl
        | cons e es =>
          obtain ⟨i1, i2⟩ := ih es (by simpa using hl)
          constructor
          · show (zeros ys).length + 1 = es.length + 1
            rw [i1]
          · show zr (0, 0) * e + dotR (zrs (zeros ys)) es = 0
            rw [i2]; simp [zr]
    obtain ⟨z1, z2⟩ := hz c d d3
    have := leaf_sound d1 its (a, 0) (zeros c) z1 s2 s1
    rw [d2]
    refine s3 0 (this.mono ?_)
    rw [z2]; simp [zr]
  | .cut k a b, c, r, L, hw, hm, h, x, hb, hd, hs => by
    obtain ⟨c1, c2, h', e1, e2⟩ := split_sound k c r _ h
    have hlen : ∀ {c r : List Nat} {x : List ℝ}, InBox c r x → c.length = x.length := fun h => by
      obtain ⟨d, _, d2, d3, _⟩ := inBox_disp h
      rw [d2, length_addR (by simpa using d3)]; simp
    rcases cond_eq e1 with ⟨f1, f2⟩ | ⟨_, f2⟩
    · rcases e2 x hb with hx | hx
      · have hl : c1.length = c.length := by rw [hlen hx, hlen hb]
        exact check_sound a c1 h' L (by rw [hl]; exact hw) (by rw [hl]; exact hm) f1 x hx hd hs
      · have hl : c2.length = c.length := by rw [hlen hx, hlen hb]
        exact check_sound b c2 h' L (by rw [hl]; exact hw) (by rw [hl]; exact hm) f2 x hx hd hs
    · cases f2
  | .ref t, c, r, L, hw, hm, h, x, hb, hd, hs => by
    obtain ⟨L', a1, a2, a3⟩ := refine_sound rfl hm L _ hw h
    have := check_sound t c r L' a2 hm a1 x hb hd hs
    obtain ⟨d, d1, d2, d3, d4⟩ := inBox_disp hb
    rw [d2] at this ⊢
    exact a3 d d1 d3.symm 0 this

/-- A cut whose halves were checked separately. -/
theorem check_cut {q : Par} {k : Nat} {a b : Tree} {c r c1 c2 h : List Nat} {L : St} (e : ∀ f, split k c r f = f c1 c2 h) (h1 : check q a c1 h L = true) (h2 : check q b c2 h L = true) :
    check q (.cut k a b) c r L = true := by
  show (split k c r fun a' b' h => cond (check q a a' h L) (check q b b' h L) false) = true
  rw [e, h1, h2]; rfl

end
end FastNoise.RangeCheck
