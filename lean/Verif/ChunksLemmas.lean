import Verif.ChunksSpec
import Mathlib.Tactic.Linarith
import Mathlib.Tactic.Positivity
import Mathlib.Data.List.Count

/-! Lemmas about the streaming of chunks. -/

namespace FastNoise.Chunks
open FastNoise.Mesh

theorem ofNat_inj {a b : Nat} (ha : a < 2 ^ 32) (hb : b < 2 ^ 32) (h : UInt32.ofNat a = UInt32.ofNat b) : a = b := by
  have := congrArg UInt32.toNat h
  simp only [UInt32.toNat_ofNat'] at this
  rwa [Nat.mod_eq_of_lt ha, Nat.mod_eq_of_lt hb] at this

theorem mem_around (n : Nat) (x : ℤ) : x ∈ around n ↔ -(n : ℤ) ≤ x ∧ x ≤ n := by
  simp only [around, List.mem_map, List.mem_range]
  constructor
  · rintro ⟨i, hi, rfl⟩; omega
  · rintro ⟨h1, h2⟩; exact ⟨(x + n).toNat, by omega, by omega⟩

theorem around_nodup (n : Nat) : (around n).Nodup := by
  unfold around
  refine List.Nodup.map ?_ List.nodup_range
  intro a b h
  simp only at h
  omega

theorem reach_eq (h : Bool) (cam p : I3) : dist2 (ground h cam) p = reach h cam p := by
  cases h <;> simp [dist2, reach, ground] <;> ring

theorem loadRangeSq_le (r : ℝ) (z : ℤ) : z ≤ loadRangeSq r ↔ (z : ℝ) ≤ r ^ 2 := by
  rw [loadRangeSq, Int.le_floor, sq]

theorem shift_le (r : ℝ) : staggerShift r ≤ 5 := Nat.min_le_left _ _

/-- A coordinate within the load range is met by the loops. -/
theorem index_bound {r : ℝ} (hr : 0 ≤ r) {a : ℤ} {p : ℤ} (hd : 128 ∣ p) (h : ((a - p : ℤ) : ℝ) ^ 2 ≤ r ^ 2) :
    ∃ x, x ∈ around (chunkRange r) ∧ x * SIZE + a.tdiv SIZE * SIZE = p ∧ x = p / 128 - a.tdiv 128 := by
  obtain ⟨k, rfl⟩ := hd
  have hk : (128 * k : ℤ) / 128 = k := by omega
  refine ⟨k - a.tdiv 128, ?_, ?_, by rw [hk]⟩
  · rw [mem_around]
    have h1 : |((a - 128 * k : ℤ) : ℝ)| ≤ r := abs_le_of_sq_le_sq h hr
    have h2 : r / 128 ≤ chunkRange r := Nat.le_ceil _
    have h3 : r ≤ 128 * chunkRange r := by linarith
    have h4 : |((a - 128 * k : ℤ) : ℝ)| ≤ ((128 * (chunkRange r : ℤ) : ℤ) : ℝ) := by push_cast; push_cast at h1; linarith
    rw [← Int.cast_abs, Int.cast_le, abs_le] at h4
    have h5 : 128 * a.tdiv 128 + a.tmod 128 = a := Int.mul_tdiv_add_tmod a 128
    have h6 : -128 < a.tmod 128 := by
      have := Int.lt_tmod_of_pos a (b := 128) (by norm_num)
      omega
    have h7 : a.tmod 128 < 128 := Int.tmod_lt_of_pos a (by norm_num)
    omega
  · unfold SIZE; ring

theorem mem_candidates {height : Bool} {r : ℝ} (hr : 0 ≤ r) {t : Nat} {reg : List I3} {cam p : I3} :
    p ∈ candidates height r t reg cam ↔ Wanted height r cam p ∧ p ∉ reg ∧ (2 : ℤ) ^ staggerShift r ∣ column cam p - t := by
  unfold candidates
  simp only [List.mem_filter, List.mem_flatMap, List.mem_map, Bool.and_eq_true, decide_eq_true_eq, reach_eq, loadRangeSq_le]
  have hsk : ∀ x : ℤ, (!skipped (staggerShift r) t x) = true ↔ (2 : ℤ) ^ staggerShift r ∣ x - t := by
    intro x
    simp only [skipped, Bool.not_eq_true', bne_eq_false_iff_eq]
    constructor
    · exact fun h => Int.ModEq.dvd (Int.ModEq.symm h)
    · exact fun h => (Int.modEq_iff_dvd.mpr h).symm
  constructor
  · rintro ⟨⟨x, ⟨hx, hs⟩, y, hy, z, hz, rfl⟩, hd, hreg⟩
    have hc : column cam (⟨x * SIZE + (chunkCenter cam).x, y, z * SIZE + (chunkCenter cam).z⟩ : I3) = x := by
      simp only [column, chunkCenter, SIZE]; omega
    refine ⟨⟨⟨⟨x + cam.x.tdiv SIZE, by simp only [chunkCenter, SIZE]; ring⟩, ?_, ⟨z + cam.z.tdiv SIZE, by simp only [chunkCenter, SIZE]; ring⟩⟩, ?_, hd⟩, hreg, ?_⟩
    · cases height with
      | true => simp only [if_true, List.mem_singleton] at hy; rw [hy]; exact dvd_zero _
      | false =>
        simp only [Bool.false_eq_true, if_false, List.mem_map] at hy
        obtain ⟨y', _, rfl⟩ := hy
        exact ⟨y' + cam.y.tdiv SIZE, by simp only [chunkCenter, SIZE]; ring⟩
    · intro hh
      subst hh
      simpa using hy
    · rw [hc]; exact (hsk x).mp hs
  · rintro ⟨⟨⟨g1, g2, g3⟩, hh, hd⟩, hreg, hs⟩
    have hdz : (reach height cam p : ℝ) = ((cam.x - p.x : ℤ) : ℝ) ^ 2 + (if height then ((p.y : ℤ) : ℝ) ^ 2 else ((cam.y - p.y : ℤ) : ℝ) ^ 2) + ((cam.z - p.z : ℤ) : ℝ) ^ 2 := by
      cases height <;> simp [reach]
    have b1 : ((cam.x - p.x : ℤ) : ℝ) ^ 2 ≤ r ^ 2 := by
      have : 0 ≤ (if height then ((p.y : ℤ) : ℝ) ^ 2 else ((cam.y - p.y : ℤ) : ℝ) ^ 2) := by split <;> positivity
      nlinarith [sq_nonneg ((cam.z - p.z : ℤ) : ℝ)]
    have b3 : ((cam.z - p.z : ℤ) : ℝ) ^ 2 ≤ r ^ 2 := by
      have : 0 ≤ (if height then ((p.y : ℤ) : ℝ) ^ 2 else ((cam.y - p.y : ℤ) : ℝ) ^ 2) := by split <;> positivity
      nlinarith [sq_nonneg ((cam.x - p.x : ℤ) : ℝ)]
    obtain ⟨x, hx, ex, ex'⟩ := index_bound hr g1 b1
    obtain ⟨z, hz, ez, _⟩ := index_bound hr g3 b3
    refine ⟨⟨x, ⟨hx, (hsk x).mpr ?_⟩, p.y, ?_, z, hz, ?_⟩, hd, hreg⟩
    · rw [ex']; exact hs
    · cases height with
      | true => simp [hh rfl]
      | false =>
        simp only [Bool.false_eq_true, if_false, List.mem_map] at hdz ⊢
        have b2 : ((cam.y - p.y : ℤ) : ℝ) ^ 2 ≤ r ^ 2 := by
          nlinarith [sq_nonneg ((cam.x - p.x : ℤ) : ℝ), sq_nonneg ((cam.z - p.z : ℤ) : ℝ)]
        obtain ⟨y, hy, ey, _⟩ := index_bound hr g2 b2
        exact ⟨y, hy, ey⟩
    · simp only [chunkCenter]; rw [ex, ez]

theorem candidates_nodup (height : Bool) (r : ℝ) (t : Nat) (reg : List I3) (cam : I3) : (candidates height r t reg cam).Nodup := by
  unfold candidates
  refine List.Nodup.filter _ ?_
  rw [List.nodup_flatMap]
  refine ⟨fun x _ => ?_, ?_⟩
  · rw [List.nodup_flatMap]
    refine ⟨fun y _ => List.Nodup.map ?_ (around_nodup _), ?_⟩
    · intro a b h
      simp only [I3.mk.injEq, SIZE] at h
      omega
    · have hys : (if height then [0] else (around (chunkRange r)).map fun y => y * SIZE + (chunkCenter cam).y : List ℤ).Nodup := by
        split
        · simp
        · refine List.Nodup.map ?_ (around_nodup _)
          intro a b h
          simp only [SIZE] at h
          omega
      refine List.Pairwise.imp (R := fun a b => a ≠ b) ?_ hys
      · intro a b hab p h1 h2
        simp only [List.mem_map] at h1 h2
        obtain ⟨_, _, rfl⟩ := h1
        obtain ⟨_, _, h⟩ := h2
        simp only [I3.mk.injEq] at h
        exact hab h.2.1.symm
  · refine List.Pairwise.imp (R := fun a b => a ≠ b) ?_ ((around_nodup _).filter _)
    · intro a b hab p h1 h2
      simp only [List.mem_flatMap, List.mem_map] at h1 h2
      obtain ⟨_, _, _, _, rfl⟩ := h1
      obtain ⟨_, _, _, _, h⟩ := h2
      simp only [I3.mk.injEq, SIZE] at h
      exact hab (by omega)

theorem modifier_bounds {r : ℝ} (h : 0 < r) : 0 ≤ rangeModifier r ∧ rangeModifier r ≤ 0.01 := by
  unfold rangeModifier
  refine ⟨le_min (by norm_num) ?_, min_le_left _ _⟩
  have : 0 < min 1000 r := lt_min (by norm_num) h
  positivity

/-- The modifier does not depend on the range. -/
theorem modifier_eq {r : ℝ} (h : 0 < r) : rangeModifier r = 0.01 := by
  unfold rangeModifier
  refine min_eq_left ?_
  have h0 : 0 < min 1000 r := lt_min (by norm_num) h
  have h1 : (min 1000 r) ^ (1.5 : ℝ) ≤ (1000 : ℝ) ^ (1.5 : ℝ) := Real.rpow_le_rpow h0.le (min_le_left _ _) (by norm_num)
  have h2 : (1000 : ℝ) ^ (1.5 : ℝ) ≤ (1000 : ℝ) ^ (5 / 3 : ℝ) := Real.rpow_le_rpow_of_exponent_le (by norm_num) (by norm_num)
  have h3 : (1000 : ℝ) ^ (5 / 3 : ℝ) = 100000 := by
    rw [show (1000 : ℝ) = 10 ^ (3 : ℝ) by norm_num, ← Real.rpow_mul (by norm_num)]
    norm_num
  have h4 : 0 < (min 1000 r) ^ (1.5 : ℝ) := Real.rpow_pos_of_pos h0 _
  rw [le_div_iff₀ h4]
  linarith

end FastNoise.Chunks
