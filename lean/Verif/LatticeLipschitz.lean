import Verif.LatticeLemmas
/-!
# Lipschitz bounds of the lattice noises

Lemmas for C75: an interpolation between lattice points whose weight is Lipschitz on one cell is Lipschitz everywhere.
-/
namespace FastNoise.Lattice
open FastNoise.Hash FastNoise.Num FastNoise.Basic FastNoise.Gradient

noncomputable section

/-- Sum of the coordinate differences. -/
def manhattan (x y : List ℝ) : ℝ := (List.zipWith (fun a b => |a - b|) x y).sum

theorem manhattan_nonneg : ∀ x y : List ℝ, 0 ≤ manhattan x y
  | [], _ => by simp [manhattan]
  | _ :: _, [] => by simp [manhattan]
  | a :: x, b :: y => by
    have := manhattan_nonneg x y
    simp only [manhattan, List.zipWith_cons_cons, List.sum_cons] at this ⊢
    have := abs_nonneg (a - b)
    linarith

theorem manhattan_cons (a b : ℝ) (x y : List ℝ) : manhattan (a :: x) (b :: y) = |a - b| + manhattan x y := by simp [manhattan]

theorem manhattan_self : ∀ x : List ℝ, manhattan x x = 0
  | [] => by simp [manhattan]
  | a :: x => by rw [manhattan_cons, manhattan_self x]; simp

/-- A function that is Lipschitz on each unit interval between integers is Lipschitz. -/
theorem glue (f : ℝ → ℝ) {K : ℝ} (h : ∀ (m : ℤ) (a b : ℝ), m ≤ a → a ≤ b → b ≤ m + 1 → |f a - f b| ≤ K * (b - a)) :
    ∀ (n : Nat) (a b : ℝ), a ≤ b → ⌊b⌋ ≤ ⌊a⌋ + n → |f a - f b| ≤ K * (b - a)
  | 0, a, b, hab, hn => by
    refine h ⌊a⌋ a b (Int.floor_le a) hab ?_
    have h1 := Int.lt_floor_add_one b
    have h2 : (⌊b⌋ : ℝ) ≤ ⌊a⌋ := by exact_mod_cast (by simpa using hn : ⌊b⌋ ≤ ⌊a⌋)
    linarith
  | n + 1, a, b, hab, hn => by
    rcases le_or_gt b (⌊a⌋ + 1) with hb | hb
    · exact h ⌊a⌋ a b (Int.floor_le a) hab hb
    · have h1 := h ⌊a⌋ a (⌊a⌋ + 1) (Int.floor_le a) (Int.lt_floor_add_one a).le le_rfl
      have h2 := glue f h n (⌊a⌋ + 1) b hb.le (by
        have : ⌊((⌊a⌋ : ℝ) + 1)⌋ = ⌊a⌋ + 1 := by simp
        rw [this]; push_cast at hn; omega)
      have := abs_sub_le (f a) (f (⌊a⌋ + 1)) (f b)
      linarith

/-- The weight function of one axis. -/
structure Weight (w : ℝ → ℝ) (c : ℝ) : Prop where
  zero : w 0 = 0
  one : w 1 = 1
  mem : ∀ t, 0 ≤ t → t ≤ 1 → 0 ≤ w t ∧ w t ≤ 1
  lip : ∀ t s, 0 ≤ t → t ≤ 1 → 0 ≤ s → s ≤ 1 → |w t - w s| ≤ c * |t - s|

variable {w : ℝ → ℝ} {c : ℝ}

theorem Weight.pos (hw : Weight w c) : 0 ≤ c := by
  have := hw.lip 1 0 (by norm_num) (by norm_num) (by norm_num) (by norm_num)
  have h2 := abs_nonneg (w 1 - w 0)
  norm_num at this
  linarith

theorem Weight.frac (hw : Weight w c) (a : ℝ) : 0 ≤ w (a - (⌊a⌋ : ℤ)) ∧ w (a - (⌊a⌋ : ℤ)) ≤ 1 :=
  hw.mem _ (fract_range a).1 (fract_range a).2

/-- One axis. -/
def along (w : ℝ → ℝ) (A : ℤ → ℝ → ℝ) (a : ℝ) : ℝ := lerp (A ⌊a⌋ a) (A (⌊a⌋ + 1) a) (w (a - (⌊a⌋ : ℤ)))

theorem along_cell (hw : Weight w c) (A : ℤ → ℝ → ℝ) (m : ℤ) (a : ℝ) (h0 : m ≤ a) (h1 : a ≤ m + 1) :
    along w A a = lerp (A m a) (A (m + 1) a) (w (a - m)) := by
  unfold along
  rcases h1.lt_or_eq with h | h
  · have : ⌊a⌋ = m := Int.floor_eq_iff.mpr ⟨h0, h⟩
    rw [this]
  · have : ⌊a⌋ = m + 1 := by rw [h]; simp
    rw [this]
    have e1 : a - ((m + 1 : ℤ) : ℝ) = 0 := by rw [h]; push_cast; ring
    have e2 : a - (m : ℝ) = 1 := by rw [h]; ring
    rw [e1, e2, hw.zero, hw.one]
    simp only [lerp, Num.fma]; ring

theorem lerp_diff {P Q P' Q' u u' G D E : ℝ} (hu : 0 ≤ u) (hu1 : u ≤ 1) (hP : |P - P'| ≤ G) (hQ : |Q - Q'| ≤ G) (hD : |Q' - P'| ≤ D) (hE : |u - u'| ≤ E) :
    |lerp P Q u - lerp P' Q' u'| ≤ G + D * E := by
  have e : lerp P Q u - lerp P' Q' u' = (P - P') * (1 - u) + (Q - Q') * u + (Q' - P') * (u - u') := by simp only [lerp, Num.fma]; ring
  rw [e]
  have t1 := abs_add_le ((P - P') * (1 - u) + (Q - Q') * u) ((Q' - P') * (u - u'))
  have t2 := abs_add_le ((P - P') * (1 - u)) ((Q - Q') * u)
  rw [abs_mul, abs_mul, abs_of_nonneg hu, abs_of_nonneg (by linarith : 0 ≤ 1 - u)] at t2
  rw [abs_mul (Q' - P')] at t1
  have t3 : |Q' - P'| * |u - u'| ≤ D * E := mul_le_mul hD hE (abs_nonneg _) ((abs_nonneg _).trans hD)
  have t4 := mul_le_mul_of_nonneg_right hP (by linarith : 0 ≤ 1 - u)
  have t5 := mul_le_mul_of_nonneg_right hQ hu
  linarith

theorem along_lipschitz (hw : Weight w c) (A : ℤ → ℝ → ℝ) {G B : ℝ}
    (hA : ∀ (m : ℤ) (t s : ℝ), |t - m| ≤ 1 → |s - m| ≤ 1 → |A m t - A m s| ≤ G * |t - s|) (hB : ∀ (m : ℤ) (t : ℝ), |t - m| ≤ 1 → |A m t| ≤ B) (a b : ℝ) :
    |along w A a - along w A b| ≤ (G + 2 * B * c) * |a - b| := by
  have cell : ∀ (m : ℤ) (a b : ℝ), m ≤ a → a ≤ b → b ≤ m + 1 → |along w A a - along w A b| ≤ (G + 2 * B * c) * (b - a) := by
    intro m a b h0 hab h1
    rw [along_cell hw A m a h0 (hab.trans h1), along_cell hw A m b (h0.trans hab) h1]
    have ea : |a - m| ≤ 1 := by rw [abs_le]; constructor <;> linarith
    have eb : |b - m| ≤ 1 := by rw [abs_le]; constructor <;> linarith
    have ea1 : |a - ((m + 1 : ℤ) : ℝ)| ≤ 1 := by rw [abs_le]; push_cast; constructor <;> linarith
    have eb1 : |b - ((m + 1 : ℤ) : ℝ)| ≤ 1 := by rw [abs_le]; push_cast; constructor <;> linarith
    have hd : |a - b| = b - a := by rw [abs_sub_comm]; exact abs_of_nonneg (by linarith)
    have u := hw.mem (a - m) (by linarith) (by linarith)
    have l := hw.lip (a - m) (b - m) (by linarith) (by linarith) (by linarith) (by linarith)
    have p := hA m a b ea eb
    have q := hA (m + 1) a b ea1 eb1
    have d : |A (m + 1) b - A m b| ≤ 2 * B := (abs_sub _ _).trans (by linarith [hB _ _ eb, hB _ _ eb1])
    rw [show a - (m : ℝ) - (b - m) = a - b by ring] at l
    rw [hd] at l p q
    refine (lerp_diff u.1 u.2 p q d l).trans (le_of_eq (by ring))
  have go : ∀ a b : ℝ, a ≤ b → |along w A a - along w A b| ≤ (G + 2 * B * c) * (b - a) := by
    intro a b hab
    refine glue _ cell (⌊b⌋ - ⌊a⌋).toNat a b hab ?_
    have := Int.floor_le_floor hab
    omega
  rcases le_total a b with h | h
  · rw [abs_sub_comm a b, abs_of_nonneg (by linarith : 0 ≤ b - a)]; exact go a b h
  · rw [abs_sub_comm, abs_of_nonneg (by linarith : 0 ≤ a - b)]; exact go b a h

theorem interp_diff {E : ℝ} : ∀ (ts : List ℝ) (f g : List Bool → ℝ), (∀ t ∈ ts, 0 ≤ t ∧ t ≤ 1) →
    (∀ bs, bs.length = ts.length → |f bs - g bs| ≤ E) → |interp f ts - interp g ts| ≤ E
  | [], f, g, _, h => h [] rfl
  | t :: ts, f, g, ht, h => by
    refine interp_diff ts _ _ (fun s hs => ht s (by simp [hs])) ?_
    intro bs hb
    have t' := ht t (by simp)
    have := lerp_diff (D := |g (true :: bs) - g (false :: bs)|) (E := 0) (u' := t) t'.1 t'.2 (h (false :: bs) (by simp [hb])) (h (true :: bs) (by simp [hb])) le_rfl (by simp)
    simpa using this

/-- Every coordinate is within 1 of its lattice coordinate. -/
def Near (ks : List ℤ) (xs : List ℝ) : Prop := List.Forall₂ (fun (k : ℤ) (x : ℝ) => |x - k| ≤ 1) ks xs

theorem near_floor (a : ℝ) : |a - (⌊a⌋ : ℤ)| ≤ 1 ∧ |a - ((⌊a⌋ + 1 : ℤ) : ℝ)| ≤ 1 := by
  have h0 := Int.floor_le a
  have h1 := Int.lt_floor_add_one a
  push_cast
  constructor <;> rw [abs_le] <;> constructor <;> linarith

theorem near_corner : ∀ (xs : List ℝ) (bs : List Bool), bs.length = xs.length → Near (cornerZ xs bs) xs
  | [], bs, _ => by simp [cornerZ, Near]
  | a :: xs, b :: bs, h => by
    have := near_corner xs bs (by simpa using h)
    unfold cornerZ Near at *
    rw [List.zipWith_cons_cons]
    refine List.Forall₂.cons ?_ this
    have := near_floor a
    cases b
    · simpa using this.1
    · simpa using this.2

/-- The interpolation between the corner functions `C`. -/
def blend (w : ℝ → ℝ) (C : List ℤ → List ℝ → ℝ) (x : List ℝ) : ℝ := interp (fun bs => C (cornerZ x bs) x) (x.map fun t => w (t - (⌊t⌋ : ℤ)))

theorem blend_cons (w : ℝ → ℝ) (C : List ℤ → List ℝ → ℝ) (a : ℝ) (xs : List ℝ) :
    blend w C (a :: xs) = blend w (fun ks ys => along w (fun m t => C (m :: ks) (t :: ys)) a) xs := by
  simp [blend, interp, cornerZ, along]

theorem blend_lipschitz (hw : Weight w c) {G B : ℝ} (hG0 : 0 ≤ G) (hB0 : 0 ≤ B) : ∀ (x y : List ℝ) (C : List ℤ → List ℝ → ℝ), x.length = y.length →
    (∀ ks xs ys, ks.length = x.length → Near ks xs → Near ks ys → |C ks xs - C ks ys| ≤ G * manhattan xs ys) →
    (∀ ks xs, ks.length = x.length → Near ks xs → |C ks xs| ≤ B) →
    |blend w C x - blend w C y| ≤ (G + 2 * B * c) * manhattan x y
  | [], [], C, _, _, _ => by simp [manhattan]
  | a :: xs, b :: ys, C, hl, hG, hB => by
    have hl' : xs.length = ys.length := by simpa using hl
    have near_cons : ∀ {k : ℤ} {t : ℝ} {ks : List ℤ} {zs : List ℝ}, |t - k| ≤ 1 → Near ks zs → Near (k :: ks) (t :: zs) := fun h1 h2 => List.Forall₂.cons h1 h2
    rw [blend_cons, blend_cons, manhattan_cons]
    have h1 := blend_lipschitz hw hG0 hB0 xs ys (fun ks zs => along w (fun m t => C (m :: ks) (t :: zs)) a) hl'
      (by
        intro ks us vs hk nu nv
        unfold along
        have f := hw.frac a
        have n := near_floor a
        have p := hG (⌊a⌋ :: ks) (a :: us) (a :: vs) (by simp [hk]) (near_cons n.1 nu) (near_cons n.1 nv)
        have q := hG ((⌊a⌋ + 1) :: ks) (a :: us) (a :: vs) (by simp [hk]) (near_cons n.2 nu) (near_cons n.2 nv)
        rw [manhattan_cons, sub_self, abs_zero, zero_add] at p q
        have := lerp_diff (u' := w (a - (⌊a⌋ : ℤ))) (E := 0) f.1 f.2 p q le_rfl (by simp)
        simpa using this)
      (by
        intro ks us hk nu
        unfold along
        have f := hw.frac a
        have n := near_floor a
        have p := abs_le.mp (hB (⌊a⌋ :: ks) (a :: us) (by simp [hk]) (near_cons n.1 nu))
        have q := abs_le.mp (hB ((⌊a⌋ + 1) :: ks) (a :: us) (by simp [hk]) (near_cons n.2 nu))
        simp only [lerp, Num.fma]
        rw [abs_le]
        constructor <;> nlinarith)
    have h2 : |blend w (fun ks zs => along w (fun m t => C (m :: ks) (t :: zs)) a) ys - blend w (fun ks zs => along w (fun m t => C (m :: ks) (t :: zs)) b) ys| ≤
        (G + 2 * B * c) * |a - b| := by
      unfold blend
      refine interp_diff _ _ _ ?_ ?_
      · intro t ht
        obtain ⟨z, -, rfl⟩ := List.mem_map.mp ht
        exact hw.frac z
      · intro bs hb
        have hb' : bs.length = ys.length := by simpa using hb
        have nr := near_corner ys bs hb'
        have hk : (cornerZ ys bs).length = xs.length := by simp [cornerZ, hb', hl']
        refine along_lipschitz hw (fun m t => C (m :: cornerZ ys bs) (t :: ys)) ?_ ?_ a b
        · intro m t s ht hs
          have := hG (m :: cornerZ ys bs) (t :: ys) (s :: ys) (by simp [hk]) (near_cons ht nr) (near_cons hs nr)
          rwa [manhattan_cons, manhattan_self, add_zero] at this
        · intro m t ht
          exact hB _ _ (by simp [hk]) (near_cons ht nr)
    have := abs_sub_le (blend w (fun ks zs => along w (fun m t => C (m :: ks) (t :: zs)) a) xs) (blend w (fun ks zs => along w (fun m t => C (m :: ks) (t :: zs)) a) ys)
      (blend w (fun ks zs => along w (fun m t => C (m :: ks) (t :: zs)) b) ys)
    rw [mul_add]
    linarith

end
end FastNoise.Lattice
