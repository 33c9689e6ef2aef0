import Verif.FloatCellularMetric
/-! # Cellular noise in binary32: all cells, and order statistics -/
namespace FastNoise.FloatCellular
open FastNoise.Hash FastNoise.Num FastNoise.Basic FastNoise.F32
open FastNoise.Cellular (Cfg Tab tab nested cellHash normSq)

/-! ## The visited cells -/

/-- A visited cell and the integer coordinates it stands for. -/
def Rel (g : Gen) : List ℝ → List I32 → List (ℝ × I32) → List ℤ → Prop
  | [], _, [], [] => True
  | x :: xs, p :: ps, q :: cell, m :: ms => (Near g x q.1 m ∧ q.2 = BitVec.ofInt 32 m * p ∧ |(m : ℝ) - x| ≤ 3 / 2) ∧ Rel g xs ps cell ms
  | _, _, _, _ => False

theorem visited_rel (g : Gen) {k : ℤ} (hk : k ≤ 22) (xs : List ℝ) (hx : ∀ x ∈ xs, |x| ≤ 2 ^ k - 3) : ∀ ps : List I32, xs.length ≤ ps.length →
    List.Forall₂ (Rel g xs ps) (nested (List.zipWith (axisCells g) xs ps)) (cubes xs) := by
  induction xs with
  | nil => intro ps _; simp [nested, cubes, Rel]
  | cons x xs ih =>
    intro ps hl
    cases ps with
    | nil => simp at hl
    | cons p ps =>
      rw [List.zipWith_cons_cons]
      simp only [nested, cubes]
      have hx0 := hx x List.mem_cons_self
      have hd := abs_le.mp (abs_round_sub x)
      have ax : List.Forall₂ (fun q (m : ℤ) => Near g x q.1 m ∧ q.2 = BitVec.ofInt 32 m * p ∧ |(m : ℝ) - x| ≤ 3 / 2)
          (axisCells g x p) [roundEven x - 1, roundEven x, roundEven x + 1] := by
        have := axisCells_near g hk hx0 p
        obtain ⟨a, b, c, habc⟩ : ∃ a b c, axisCells g x p = [a, b, c] := ⟨_, _, _, rfl⟩
        rw [habc] at this ⊢
        rcases this with _ | ⟨h1, _ | ⟨h2, _ | ⟨h3, _⟩⟩⟩
        refine List.Forall₂.cons ⟨h1.1, h1.2, ?_⟩ (List.Forall₂.cons ⟨h2.1, h2.2, ?_⟩ (List.Forall₂.cons ⟨h3.1, h3.2, ?_⟩ List.Forall₂.nil)) <;>
          (rw [abs_le]; push_cast; constructor <;> linarith)
      refine List.rel_flatMap ax ?_
      intro q m hq
      refine List.rel_map (R := Rel g xs ps) ?_ (ih (fun y hy => hx y (List.mem_cons_of_mem _ hy)) ps (by simpa using hl))
      intro cell ms hc
      exact ⟨hq, hc⟩

theorem rel_len {g : Gen} : ∀ {xs : List ℝ} {ps : List I32} {cell : List (ℝ × I32)} {ms : List ℤ}, Rel g xs ps cell ms → ms.length = xs.length ∧ cell.length = xs.length := by
  intro xs
  induction xs with
  | nil => intro ps cell ms h; cases cell <;> cases ms <;> simp_all [Rel]
  | cons x xs ih =>
    intro ps cell ms h
    cases ps <;> cases cell <;> cases ms <;> simp only [Rel] at h
    have := ih h.2
    simpa using this

theorem rel_snd {g : Gen} : ∀ {xs : List ℝ} {ps : List I32} {cell : List (ℝ × I32)} {ms : List ℤ}, Rel g xs ps cell ms →
    cell.map Prod.snd = List.zipWith (· * ·) (ms.map (BitVec.ofInt 32)) ps := by
  intro xs
  induction xs with
  | nil => intro ps cell ms h; cases cell <;> cases ms <;> simp_all [Rel]
  | cons x xs ih =>
    intro ps cell ms h
    cases ps <;> cases cell <;> cases ms <;> simp only [Rel] at h
    simp [ih h.2, h.1.2.1]

/-- The computed difference vector is close to the true one. -/
theorem rel_close (L : Level) (g : Gen) {k : ℤ} (hk1 : 1 ≤ k) (hk : k ≤ 22) {q J M ρ : ℝ} (hρ : ρ ≤ 1 / 16) :
    ∀ (os : List ℝ) (xs : List ℝ) (ps : List I32) (cell : List (ℝ × I32)) (ms : List ℤ), Rel g xs ps cell ms → os.length = xs.length →
      (∀ x ∈ xs, |x| ≤ 2 ^ k - 3) → (∀ o ∈ os, |o * q - J * o / √M| ≤ ρ / 2 + 1.1 / 2 ^ 24 ∧ |J * o / √M| ≤ 0.4371) →
      Close (axisErr g k ρ) (List.zipWith (fun o p => relative L g o q p.1 p.2) os ((cell.map Prod.fst).zip xs))
        (List.zipWith (· - ·) (List.zipWith (fun o c => Num.fma o (J * (1 / √M)) c) os (ms.map (fun k : ℤ => (k : ℝ)))) xs) := by
  intro os
  induction os with
  | nil => intro xs ps cell ms _ _ _ _; simp
  | cons o os ih =>
    intro xs ps cell ms h hl hx ho
    cases xs with
    | nil => simp at hl
    | cons x xs =>
      cases ps <;> cases cell <;> cases ms <;> simp only [Rel] at h
      rename_i p ps c cell m ms
      have h0 := ho o List.mem_cons_self
      have hx0 := hx x List.mem_cons_self
      have e := relative_err L g hk1 hk hx0 h.1.1 h.1.2.2 hρ h0.2 h0.1
      have et : Num.fma o (J * (1 / √M)) (m : ℝ) - x = J * o / √M + (m - x) := by unfold Num.fma; ring
      simp only [List.map_cons, List.zip_cons_cons, List.zipWith_cons_cons]
      refine List.Forall₂.cons ⟨?_, ?_⟩ (ih xs ps cell ms h.2 (by simpa using hl) (fun y hy => hx y (List.mem_cons_of_mem _ hy)) (fun y hy => ho y (List.mem_cons_of_mem _ hy)))
      · rw [et]; exact e
      · rw [et]
        refine (abs_add_le _ _).trans ?_
        have := h0.2; have := h.1.2.2
        norm_num at *
        linarith

/-- The computed feature point (CellularLookup) is close to the true one. -/
theorem rel_point (L : Level) {k : ℤ} (hk1 : 1 ≤ k) (hk : k ≤ 22) {q J M ρ : ℝ} (hρ : ρ ≤ 1 / 16) :
    ∀ (os : List ℝ) (xs : List ℝ) (ps : List I32) (cell : List (ℝ × I32)) (ms : List ℤ), Rel .lookup xs ps cell ms → os.length = xs.length →
      (∀ x ∈ xs, |x| ≤ 2 ^ k - 3) → (∀ o ∈ os, |o * q - J * o / √M| ≤ ρ / 2 + 1.1 / 2 ^ 24 ∧ |J * o / √M| ≤ 0.4371) →
      List.Forall₂ (fun a b => |a - b| ≤ axisErr .lookup k ρ) (List.zipWith (fun o cf => F32.fma L o q cf) os (cell.map Prod.fst))
        (List.zipWith (fun o c => Num.fma o (J * (1 / √M)) c) os (ms.map (fun k : ℤ => (k : ℝ)))) := by
  intro os
  induction os with
  | nil => intro xs ps cell ms _ _ _ _; simp
  | cons o os ih =>
    intro xs ps cell ms h hl hx ho
    cases xs with
    | nil => simp at hl
    | cons x xs =>
      cases ps <;> cases cell <;> cases ms <;> simp only [Rel] at h
      rename_i p ps c cell m ms
      have h0 := ho o List.mem_cons_self
      have hx' := abs_le.mp (hx x List.mem_cons_self)
      have hc : c.1 = m := h.1.1
      have hP' := abs_le.mp h0.1
      have hT' := abs_le.mp h0.2
      have hm' := abs_le.mp h.1.2.2
      norm_num at hP' hT'
      have hoq : |o * q| ≤ 0.4684 := by rw [abs_le]; norm_num; constructor <;> linarith
      have hoq' := abs_le.mp hoq
      norm_num at hoq'
      have hbig : |o * q + (m : ℝ)| + 2 ^ (-25 : ℤ) ≤ 2 ^ k := by
        have : |o * q + (m : ℝ)| ≤ 2 ^ k - 1 := by rw [abs_le]; constructor <;> linarith
        have h : (2 : ℝ) ^ (-25 : ℤ) ≤ 1 := by norm_num
        linarith
      have e := fma_err L (a := o) (b := q) (c := (m : ℝ)) (k := k) (by omega) (by norm_num at hoq ⊢; linarith) hbig
      have h25 : (2 : ℝ) ^ (-25 : ℤ) = 1 / 33554432 := by norm_num
      rw [h25, abs_le] at e
      simp only [List.map_cons, List.zipWith_cons_cons]
      refine List.Forall₂.cons ?_ (ih xs ps cell ms h.2 (by simpa using hl) (fun y hy => hx y (List.mem_cons_of_mem _ hy)) (fun y hy => ho y (List.mem_cons_of_mem _ hy)))
      have et : Num.fma o (J * (1 / √M)) (m : ℝ) = J * o / √M + m := by unfold Num.fma; ring
      rw [hc, et]
      unfold axisErr
      rw [abs_le, if_pos rfl]
      norm_num
      constructor <;> linarith

/-! ## Order statistics -/

theorem kth_le {α : Type} (l : List α) (f g : α → ℝ) {ε : ℝ} (h : ∀ a ∈ l, f a ≤ g a + ε) {F G : List ℝ} (hF : F.Perm (l.map f)) (hFs : F.Pairwise (· ≤ ·))
    (hG : G.Perm (l.map g)) (hGs : G.Pairwise (· ≤ ·)) {i : ℕ} (h1 : i < F.length) (h2 : i < G.length) : F[i] ≤ G[i] + ε := by
  by_contra hc
  push Not at hc
  -- at least i + 1 entries of G are at most G[i]
  have c1 : i + 1 ≤ G.countP (fun y => decide (y ≤ G[i])) := by
    have : (G.take (i + 1)).countP (fun y => decide (y ≤ G[i])) = i + 1 := by
      rw [List.countP_eq_length.mpr]
      · simp; omega
      · intro y hy
        obtain ⟨j, hj, rfl⟩ := List.mem_iff_getElem.mp hy
        simp only [List.length_take] at hj
        rw [List.getElem_take]
        rw [decide_eq_true_iff]
        rcases Nat.lt_or_ge j i with hji | hji
        · exact List.pairwise_iff_getElem.mp hGs j i (by omega) h2 hji
        · have : j = i := by omega
          subst this; exact le_rfl
    rw [← this]
    exact (List.take_sublist _ _).countP_le
  -- at most i entries of F are below F[i]
  have c2 : F.countP (fun y => decide (y < F[i])) ≤ i := by
    have e : F.countP (fun y => decide (y < F[i])) = (F.take i).countP (fun y => decide (y < F[i])) + (F.drop i).countP (fun y => decide (y < F[i])) := by
      rw [← List.countP_append, List.take_append_drop]
    have z : (F.drop i).countP (fun y => decide (y < F[i])) = 0 := by
      rw [List.countP_eq_zero]
      intro y hy
      obtain ⟨j, hj, rfl⟩ := List.mem_iff_getElem.mp hy
      rw [List.getElem_drop, decide_eq_true_iff, not_lt]
      rcases Nat.eq_zero_or_pos j with rfl | hj0
      · simp
      · exact List.pairwise_iff_getElem.mp hFs i (i + j) h1 (by simpa [Nat.add_comm] using (by simp at hj; omega : i + j < F.length)) (by omega)
    rw [e, z]
    refine (List.countP_le_length).trans ?_
    simp
  have c3 : G.countP (fun y => decide (y ≤ G[i])) ≤ F.countP (fun y => decide (y < F[i])) := by
    rw [hG.countP_eq, hF.countP_eq, List.countP_map, List.countP_map]
    apply List.countP_mono_left
    intro a ha hga
    simp only [Function.comp, decide_eq_true_iff] at *
    have := h a ha
    linarith
  omega

/-- The k-th smallest entry moves by no more than the entries do. -/
theorem kth_close {α : Type} (l : List α) (f g : α → ℝ) {ε : ℝ} (h : ∀ a ∈ l, |f a - g a| ≤ ε) {F G : List ℝ} (hF : F.Perm (l.map f)) (hFs : F.Pairwise (· ≤ ·))
    (hG : G.Perm (l.map g)) (hGs : G.Pairwise (· ≤ ·)) {i : ℕ} (h1 : i < F.length) (h2 : i < G.length) : |F[i] - G[i]| ≤ ε := by
  have a := kth_le l f g (fun a ha => by have := abs_le.mp (h a ha); linarith) hF hFs hG hGs h1 h2
  have b := kth_le l g f (fun a ha => by have := abs_le.mp (h a ha); linarith) hG hGs hF hFs h2 h1
  rw [abs_le]; constructor <;> linarith

end FastNoise.FloatCellular
