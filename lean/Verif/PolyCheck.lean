import Mathlib.Data.Rat.Cast.Order
import Mathlib.Data.Real.Basic
import Mathlib.Tactic.Linarith
import Mathlib.Tactic.Ring
import Mathlib.Tactic.Positivity
/-!
A checker for inequalities `0 ≤ p x` on an interval, for a polynomial in one variable with rational coefficients: bisection with a Taylor expansion at the middle of each piece.  It is
proved right below and evaluated by the kernel; it models no code.
-/
namespace FastNoise.PolyCheck

/-- Value of a polynomial given by its coefficients, lowest first. -/
def eval : List ℚ → ℝ → ℝ
  | [], _ => 0
  | a :: p, x => a + x * eval p x

/-- `c + (x + d) p`, as a polynomial in `x`. -/
def step (c d : ℚ) : List ℚ → List ℚ
  | [] => [c]
  | a :: p => (c + d * a) :: step a d p

/-- `p (x + d)` as a polynomial in `x`. -/
def shift (d : ℚ) : List ℚ → List ℚ
  | [] => []
  | a :: p => step a d (shift d p)

/-- Bound of `|p x|` for `|x| ≤ h`. -/
def absBound (h : ℚ) : List ℚ → ℚ
  | [] => 0
  | a :: p => |a| + h * absBound h p

/-- Lower bound of `p x` for `|x| ≤ h`: the even term `x^2` is dropped when its coefficient is positive. -/
def lower (h : ℚ) : List ℚ → ℚ
  | a :: b :: c :: p => a - |b| * h - (if 0 ≤ c then h * h * h * absBound h p else h * h * (|c| + h * absBound h p))
  | p => - absBound h p + (match p with | a :: q => a + absBound h (a :: q) - h * absBound h q | [] => 0)

/-- `0 ≤ p` on the interval from `c - h` to `c + h`, by at most `n` bisections. -/
def check (p : List ℚ) : Nat → ℚ → ℚ → Bool
  | 0, _, _ => false
  | n + 1, c, h => decide (0 ≤ lower h (shift c p)) || (check p n (c - h / 2) (h / 2) && check p n (c + h / 2) (h / 2))

theorem eval_step (c d : ℚ) (p : List ℚ) (x : ℝ) : eval (step c d p) x = c + (x + d) * eval p x := by
  induction p generalizing c with
  | nil => simp [step, eval]
  | cons a p ih => simp only [step, eval, ih]; push_cast; ring

theorem eval_shift (d : ℚ) (p : List ℚ) (x : ℝ) : eval (shift d p) x = eval p (x + d) := by
  induction p with
  | nil => rfl
  | cons a p ih => simp only [shift, eval, eval_step, ih]

theorem absBound_sound {h : ℚ} {x : ℝ} (hx : |x| ≤ h) (p : List ℚ) : |eval p x| ≤ absBound h p := by
  have h0 : (0 : ℝ) ≤ h := (abs_nonneg x).trans hx
  induction p with
  | nil => simp [eval, absBound]
  | cons a p ih =>
    simp only [eval, absBound]
    push_cast
    refine (abs_add_le _ _).trans (add_le_add le_rfl ?_)
    rw [abs_mul]
    exact mul_le_mul hx ih (abs_nonneg _) h0

theorem lower_sound {h : ℚ} {x : ℝ} (hx : |x| ≤ h) (p : List ℚ) : (lower h p : ℝ) ≤ eval p x := by
  have h0 : (0 : ℝ) ≤ h := (abs_nonneg x).trans hx
  match p with
  | [] => simp [lower, eval, absBound]
  | [a] =>
    simp [lower, eval, absBound]
  | [a, b] =>
    have := neg_abs_le (x * (b : ℝ))
    rw [abs_mul] at this
    have h2 : |x| * |(b : ℝ)| ≤ h * |(b : ℝ)| := mul_le_mul_of_nonneg_right hx (abs_nonneg _)
    simp only [lower, eval, absBound]
    push_cast
    nlinarith
  | a :: b :: c :: p =>
    have hb := absBound_sound hx p
    have e1 : -(|(b : ℝ)| * h) ≤ x * b := by
      have := neg_abs_le (x * (b : ℝ))
      rw [abs_mul] at this
      have h2 : |x| * |(b : ℝ)| ≤ h * |(b : ℝ)| := mul_le_mul_of_nonneg_right hx (abs_nonneg _)
      linarith
    have x2 : |x * x| ≤ h * h := by rw [abs_mul]; exact mul_le_mul hx hx (abs_nonneg _) h0
    have x3 : |x * x * x| ≤ h * h * h := by rw [abs_mul]; exact mul_le_mul x2 hx (abs_nonneg _) (by positivity)
    have e3 : -((h : ℝ) * h * h * absBound h p) ≤ x * x * x * eval p x := by
      have := neg_abs_le (x * x * x * eval p x)
      rw [abs_mul] at this
      have h2 := mul_le_mul x3 hb (abs_nonneg _) (by positivity)
      linarith
    simp only [lower, eval]
    split_ifs with hc
    · have hc' : (0 : ℝ) ≤ c := by exact_mod_cast hc
      have : 0 ≤ x * x * (c : ℝ) := mul_nonneg (mul_self_nonneg x) hc'
      push_cast
      nlinarith
    · have e2 : -((h : ℝ) * h * |(c : ℝ)|) ≤ x * x * c := by
        have := neg_abs_le (x * x * (c : ℝ))
        rw [abs_mul] at this
        have h2 := mul_le_mul_of_nonneg_right x2 (abs_nonneg (c : ℝ))
        linarith
      push_cast
      nlinarith

theorem check_sound (p : List ℚ) (n : Nat) (c h : ℚ) (hc : check p n c h = true) {x : ℝ} (hx : |x - c| ≤ h) : 0 ≤ eval p x := by
  induction n generalizing c h with
  | zero => simp [check] at hc
  | succ n ih =>
    simp only [check, Bool.or_eq_true, decide_eq_true_eq, Bool.and_eq_true] at hc
    rcases hc with hc | ⟨h1, h2⟩
    · have := lower_sound hx (shift c p)
      rw [eval_shift] at this
      have h0 : (0 : ℝ) ≤ lower h (shift c p) := by exact_mod_cast hc
      have e : x - (c : ℝ) + c = x := by ring
      rw [e] at this
      linarith
    · have hx' := abs_le.mp hx
      rcases le_total x c with hl | hl
      · refine ih _ _ h1 ?_
        push_cast
        rw [abs_le]; constructor <;> linarith
      · refine ih _ _ h2 ?_
        push_cast
        rw [abs_le]; constructor <;> linarith

/-- Non-vacuity: `x^2 - x + 0.2501` on the interval from -1 to 3. -/
example (x : ℝ) (h : |x - 1| ≤ 2) : 0 ≤ x ^ 2 - x + 0.2501 := by
  have := check_sound [0.2501, -1, 1] 20 1 2 (by decide +kernel) (x := x) (by push_cast; exact h)
  simp only [eval] at this
  norm_num at this
  linarith

end FastNoise.PolyCheck
