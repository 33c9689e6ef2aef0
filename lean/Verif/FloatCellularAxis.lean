import Verif.FloatCellularLemmas
/-! # Cellular noise in binary32: one axis of one cell -/
namespace FastNoise.FloatCellular
open FastNoise.Hash FastNoise.Num FastNoise.Basic FastNoise.F32
open FastNoise.Cellular (Cfg Tab tab nested cellHash normSq)

/-- The displacement of the feature point along one axis: `j` computed jitter, `J` the true one, `s` the approximate inverse square root of `m`. -/
theorem prod_err {j J s m o ρ : ℝ} (hj : |j| ≤ 1 / 2) (hjJ : |j - J| ≤ 2 ^ (-25 : ℤ)) (hm : 0 < m) (hs : |s * √m - 1| ≤ ρ) (hρ : ρ ≤ 1 / 16)
    (ho : |o| ≤ √m) (ho2 : |o| ≤ 2 ^ 12) : |o * mul j s - J * o / √m| ≤ ρ / 2 + 1.1 / 2 ^ 24 := by
  have hq : 0 < √m := Real.sqrt_pos.mpr hm
  have hρ0 : 0 ≤ ρ := (abs_nonneg _).trans hs
  obtain ⟨r, hr⟩ : ∃ r, r = o / √m := ⟨_, rfl⟩
  have hor : o = r * √m := by rw [hr]; field_simp
  have hr1 : |r| ≤ 1 := by rw [hr, abs_div, abs_of_pos hq, div_le_one hq]; exact ho
  obtain ⟨σ, hσ⟩ : ∃ σ, σ = s * √m := ⟨_, rfl⟩
  rw [← hσ] at hs
  have e1 : J * o / √m = J * r := by rw [hr]; ring
  have e2 : o * (j * s) = r * j * σ := by rw [hor, hσ]; ring
  have hσ1 : |σ| ≤ 17 / 16 := by
    have : σ = (σ - 1) + 1 := by ring
    rw [this]; refine (abs_add_le _ _).trans ?_; rw [abs_one]; linarith
  have hprod : |r * j * σ| ≤ 17 / 32 := by
    rw [abs_mul, abs_mul]
    calc |r| * |j| * |σ| ≤ 1 * (1 / 2) * (17 / 16) := by gcongr
      _ = _ := by norm_num
  have h1 : |o * mul j s - o * (j * s)| ≤ (17 / 32) / 2 ^ 24 + 2 ^ 12 * 2 ^ (-150 : ℤ) := by
    rw [← mul_sub, abs_mul]
    have := fl_mix (j * s)
    calc |o| * |mul j s - j * s| ≤ |o| * (|j * s| / 2 ^ 24 + 2 ^ (-150 : ℤ)) := by unfold mul; gcongr
      _ = |o * (j * s)| / 2 ^ 24 + |o| * 2 ^ (-150 : ℤ) := by rw [abs_mul o]; ring
      _ ≤ _ := by rw [e2]; gcongr
  have h2 : |r * j * σ - J * r| ≤ ρ / 2 + 2 ^ (-25 : ℤ) := by
    have : r * j * σ - J * r = r * (j * (σ - 1) + (j - J)) := by ring
    rw [this, abs_mul]
    have h3 : |j * (σ - 1) + (j - J)| ≤ 1 / 2 * ρ + 2 ^ (-25 : ℤ) := by
      refine (abs_add_le _ _).trans ?_
      rw [abs_mul]
      gcongr
    calc |r| * |j * (σ - 1) + (j - J)| ≤ 1 * (1 / 2 * ρ + 2 ^ (-25 : ℤ)) := by gcongr
      _ = _ := by ring
  have e3 : o * mul j s - J * o / √m = (o * mul j s - o * (j * s)) + (r * j * σ - J * r) := by rw [e1, e2]; ring
  rw [e3]
  refine (abs_add_le _ _).trans ?_
  refine (add_le_add h1 h2).trans ?_
  norm_num
  linarith

/-! ## The coordinates of the three cells -/

theorem abs_round_sub (x : ℝ) : |(roundEven x : ℝ) - x| ≤ 1 / 2 := roundEven_err x

/-- Range of scaled positions: `k ≤ 22`. -/
theorem cellRange {x : ℝ} {k : ℤ} (hk : k ≤ 22) (hx : |x| ≤ 2 ^ k - 3) : |roundEven x| ≤ 2 ^ 22 - 2 ∧ Cellular.CellRange x := by
  have h1 := abs_le.mp (abs_round_sub x)
  have h2 : (2 : ℝ) ^ k ≤ 2 ^ (22 : ℤ) := zpow_le_zpow_right₀ (by norm_num) hk
  have h3 := abs_le.mp hx
  norm_num at h2
  have a : (roundEven x : ℝ) ≤ ((2 ^ 22 - 2 : ℤ) : ℝ) := by push_cast; linarith
  have b : ((-(2 ^ 22 - 2) : ℤ) : ℝ) ≤ roundEven x := by push_cast; linarith
  have a' : roundEven x ≤ 2 ^ 22 - 2 := by exact_mod_cast a
  have b' : -(2 ^ 22 - 2) ≤ roundEven x := by exact_mod_cast b
  refine ⟨abs_le.mpr ⟨b', a'⟩, ?_, ?_⟩ <;> omega

/-- What a cell coordinate of the loops stands for. -/
def Near (g : Gen) (x : ℝ) (cf : ℝ) (m : ℤ) : Prop := match g with
  | .value => |cf - (m - x)| ≤ 2.25 / 2 ^ 24 ∧ |cf| ≤ 3 / 2
  | .distance | .lookup => cf = m

theorem rep_32 : Rep (3 / 2) := by have := rep_half (n := 3) (by norm_num); push_cast at this; exact this
theorem rep_12 : Rep (1 / 2) := by have := rep_half (n := 1) (by norm_num); push_cast at this; exact this

theorem axisCells_near (g : Gen) {x : ℝ} {k : ℤ} (hk : k ≤ 22) (hx : |x| ≤ 2 ^ k - 3) (p : I32) :
    List.Forall₂ (fun q (m : ℤ) => Near g x q.1 m ∧ q.2 = BitVec.ofInt 32 m * p) (axisCells g x p) [roundEven x - 1, roundEven x, roundEven x + 1] := by
  obtain ⟨hr, hc⟩ := cellRange hk hx
  have hr' := abs_le.mp hr
  -- integer parts: as in the exact model
  have c1 : convertI32 x = BitVec.ofInt 32 (roundEven x) := by rw [convertI32, if_pos ⟨by omega, hc.2⟩]
  have c2 : convertI32 x + (-1) = BitVec.ofInt 32 (roundEven x - 1) := by
    rw [c1, Int.sub_eq_add_neg, BitVec.ofInt_add]; rfl
  have c3 : (BitVec.ofInt 32 (roundEven x - 1)).toInt = roundEven x - 1 := by
    rw [BitVec.toInt_ofInt]
    refine Int.bmod_eq_of_le ?_ ?_ <;> omega
  have c4 : BitVec.ofInt 32 (roundEven x - 1) * p + p = BitVec.ofInt 32 (roundEven x) * p := by
    have : BitVec.ofInt 32 (roundEven x) = BitVec.ofInt 32 (roundEven x - 1) + 1 := by
      rw [show roundEven x = (roundEven x - 1) + 1 by omega, BitVec.ofInt_add]
      rw [show roundEven x - 1 + 1 - 1 = roundEven x - 1 by omega]; rfl
    rw [this, add_mul, one_mul]
  have c5 : BitVec.ofInt 32 (roundEven x) * p + p = BitVec.ofInt 32 (roundEven x + 1) * p := by
    rw [BitVec.ofInt_add, show BitVec.ofInt 32 1 = (1 : I32) from rfl, add_mul, one_mul]
  have c6 : conv (BitVec.ofInt 32 (roundEven x - 1)) = ((roundEven x - 1 : ℤ) : ℝ) := by
    unfold conv; rw [c3]; apply fl_rep; apply rep_int; rw [abs_le]; constructor <;> omega
  have i1 : add (((roundEven x - 1 : ℤ)) : ℝ) 1 = ((roundEven x : ℤ) : ℝ) := by
    unfold add
    rw [show (((roundEven x - 1 : ℤ)) : ℝ) + 1 = ((roundEven x : ℤ) : ℝ) by push_cast; ring]
    apply fl_rep; apply rep_int; rw [abs_le]; constructor <;> omega
  have i2 : add ((roundEven x : ℤ) : ℝ) 1 = ((roundEven x + 1 : ℤ) : ℝ) := by
    unfold add
    rw [show ((roundEven x : ℤ) : ℝ) + 1 = ((roundEven x + 1 : ℤ) : ℝ) by push_cast; ring]
    apply fl_rep; apply rep_int; rw [abs_le]; constructor <;> omega
  have hd := abs_le.mp (abs_round_sub x)
  simp only [axisCells, c2, c4, c5, c6]
  cases g with
  | distance => simp only [i1, i2]; refine List.Forall₂.cons ⟨rfl, rfl⟩ (List.Forall₂.cons ⟨rfl, rfl⟩ (List.Forall₂.cons ⟨rfl, rfl⟩ List.Forall₂.nil))
  | lookup => simp only [i1, i2]; refine List.Forall₂.cons ⟨rfl, rfl⟩ (List.Forall₂.cons ⟨rfl, rfl⟩ (List.Forall₂.cons ⟨rfl, rfl⟩ List.Forall₂.nil))
  | value =>
    simp only []
    obtain ⟨a, ha⟩ : ∃ a, a = sub ((roundEven x - 1 : ℤ) : ℝ) x := ⟨_, rfl⟩
    obtain ⟨b, hb⟩ : ∃ b, b = add a 1 := ⟨_, rfl⟩
    obtain ⟨c, hcc⟩ : ∃ c, c = add b 1 := ⟨_, rfl⟩
    have r12 := rep_12
    have r32 := rep_32
    have ea : |a - (((roundEven x - 1 : ℤ) : ℝ) - x)| ≤ 1 / 2 ^ 24 := by
      have := fl_err_le (k := 1) (by norm_num) (x := ((roundEven x - 1 : ℤ) : ℝ) - x) (by push_cast; rw [abs_le]; constructor <;> linarith)
      rw [ha]; unfold sub; norm_num at this ⊢; exact this
    have ba : -(3 / 2) ≤ a ∧ a ≤ -(1 / 2) := by
      rw [ha]; unfold sub
      exact fl_mem (rep_neg r32) (rep_neg r12) ⟨by push_cast; linarith, by push_cast; linarith⟩
    have eb : |b - (a + 1)| ≤ 0.25 / 2 ^ 24 := by
      have := fl_err_le (k := -1) (by norm_num) (x := a + 1) (by norm_num; rw [abs_le]; constructor <;> linarith)
      rw [hb]; unfold add; norm_num at this ⊢; exact this
    have bb : -(1 / 2) ≤ b ∧ b ≤ 1 / 2 := by
      rw [hb]; unfold add
      exact fl_mem (rep_neg r12) r12 ⟨by linarith, by linarith⟩
    have ec : |c - (b + 1)| ≤ 1 / 2 ^ 24 := by
      have := fl_err_le (k := 1) (by norm_num) (x := b + 1) (by norm_num; rw [abs_le]; constructor <;> linarith)
      rw [hcc]; unfold add; norm_num at this ⊢; exact this
    have bc : 1 / 2 ≤ c ∧ c ≤ 3 / 2 := by
      rw [hcc]; unfold add
      exact fl_mem r12 r32 ⟨by linarith, by linarith⟩
    rw [← ha, ← hb, ← hcc]
    rw [abs_le] at ea eb ec
    push_cast at ea
    norm_num at ea eb ec
    refine List.Forall₂.cons ⟨⟨?_, ?_⟩, rfl⟩ (List.Forall₂.cons ⟨⟨?_, ?_⟩, rfl⟩ (List.Forall₂.cons ⟨⟨?_, ?_⟩, rfl⟩ List.Forall₂.nil)) <;>
      (rw [abs_le]; push_cast; norm_num; constructor <;> linarith)

/-! ## The relative position of the feature point -/

/-- Error of one relative coordinate. -/
noncomputable def axisErr (g : Gen) (k : ℤ) (ρ : ℝ) : ℝ := ρ / 2 + 5 / 2 ^ 24 + (if g = .lookup then 2 ^ (k - 25) else 0)

theorem relative_err (L : Level) (g : Gen) {x : ℝ} {k : ℤ} (hk1 : 1 ≤ k) (hk : k ≤ 22) (hx : |x| ≤ 2 ^ k - 3) {cf : ℝ} {m : ℤ} (hn : Near g x cf m)
    (hm : |(m : ℝ) - x| ≤ 3 / 2) {o q T ρ : ℝ} (hρ : ρ ≤ 1 / 16) (hT : |T| ≤ 0.4371) (hP : |o * q - T| ≤ ρ / 2 + 1.1 / 2 ^ 24) :
    |relative L g o q cf x - (T + (m - x))| ≤ axisErr g k ρ := by
  have hP' := abs_le.mp hP
  have hT' := abs_le.mp hT
  have hm' := abs_le.mp hm
  have hx' := abs_le.mp hx
  norm_num at hP' hT'
  have hoq : |o * q| ≤ 0.4684 := by rw [abs_le]; norm_num; constructor <;> linarith
  have hoq' := abs_le.mp hoq
  norm_num at hoq'
  unfold axisErr
  cases g with
  | value =>
    obtain ⟨h1, h2⟩ := hn
    have h1' := abs_le.mp h1
    have h2' := abs_le.mp h2
    have e := fma_err L (a := o) (b := q) (c := cf) (k := 1) (by norm_num) (by norm_num at hoq ⊢; linarith)
      (by
        have : |o * q + cf| ≤ 0.4684 + 3 / 2 := (abs_add_le _ _).trans (by linarith)
        norm_num at this ⊢; linarith)
    rw [abs_le] at e
    norm_num at e h1'
    simp only [relative, reduceCtorEq, if_false]
    rw [abs_le]
    norm_num
    constructor <;> linarith
  | distance =>
    have h1 : cf = m := hn
    subst h1
    have es := fl_err_le (k := 1) (by norm_num) (x := (m : ℝ) - x) (by norm_num; linarith)
    have bs : |sub (m : ℝ) x| ≤ 3 / 2 := by
      rw [abs_le]; unfold sub
      exact fl_mem (rep_neg rep_32) rep_32 ⟨by linarith, by linarith⟩
    have e := fma_err L (a := o) (b := q) (c := sub (m : ℝ) x) (k := 1) (by norm_num) (by norm_num at hoq ⊢; linarith)
      (by
        have : |o * q + sub (m : ℝ) x| ≤ 0.4684 + 3 / 2 := (abs_add_le _ _).trans (by linarith)
        norm_num at this ⊢; linarith)
    rw [abs_le] at e es
    norm_num at e es
    simp only [relative, reduceCtorEq, if_false]
    unfold sub at *
    rw [abs_le]
    norm_num
    constructor <;> linarith
  | lookup =>
    have h1 : cf = m := hn
    subst h1
    have hbig : |o * q + (m : ℝ)| + 2 ^ (-25 : ℤ) ≤ 2 ^ k := by
      have : |o * q + (m : ℝ)| ≤ 2 ^ k - 1 := by rw [abs_le]; constructor <;> linarith
      have h : (2 : ℝ) ^ (-25 : ℤ) ≤ 1 := by norm_num
      linarith
    have e := fma_err L (a := o) (b := q) (c := (m : ℝ)) (k := k) (by omega) (by norm_num at hoq ⊢; linarith) hbig
    obtain ⟨P, hPdef⟩ : ∃ P, P = F32.fma L o q (m : ℝ) := ⟨_, rfl⟩
    rw [← hPdef] at e
    have hk3 : (2 : ℝ) ^ (k - 25) ≤ 2 ^ (-3 : ℤ) := zpow_le_zpow_right₀ (by norm_num) (by omega)
    norm_num at hk3
    have hp := two_zpow_pos (k - 25)
    rw [abs_le] at e
    have h25 : (2 : ℝ) ^ (-25 : ℤ) = 1 / 33554432 := by norm_num
    rw [h25] at e
    have es := fl_err_le (k := 2) (by norm_num) (x := P - x) (by norm_num; rw [abs_le]; constructor <;> linarith)
    rw [abs_le] at es
    norm_num at es
    simp only [relative, ← hPdef, if_true]
    unfold sub
    rw [abs_le]
    norm_num
    constructor <;> linarith

end FastNoise.FloatCellular
