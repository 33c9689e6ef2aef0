import Verif.Grid
import Mathlib.Tactic.Ring
import Mathlib.Tactic.Linarith
import Mathlib.Algebra.Order.Ring.Int

/-! Helper lemmas for `Grid.lean`. -/

namespace FastNoise.Grid

theorem w32_id {x : Int} (h0 : -2 ^ 31 ≤ x) (h1 : x < 2 ^ 31) : w32 x = x := by
  unfold w32; rw [Int.bmod_eq_of_le] <;> omega

/-! ### AxisReset -/

theorem resetBody_fst (a b : Lanes Int) (M S : Int) (i : Nat) :
    (resetBody a b M S).1 i = if M < a i then w32 (a i - S) else a i := rfl
theorem resetBody_snd (a b : Lanes Int) (M S : Int) (i : Nat) :
    (resetBody a b M S).2 i = if M < a i then w32 (b i + 1) else b i := rfl

/-- The loop never changes whether it ends, and in every lane `i` where the numbers stay in range and enough
passes remain, it reduces `a` modulo the size and carries the quotient into `b`. -/
theorem resetLoop_spec (N s : Nat) (hs : 0 < s) (M : Int) (hM : 1 ≤ M) (hM2 : M < 2 ^ 31) (r : Nat) (a b : Lanes Int) :
    ∃ a' b', resetLoop N s (M - 1) M r a b = .ok (a', b') ∧
      ∀ i q t, a i = q * M + t → 0 ≤ t → t < M → 0 ≤ q → a i < 2 ^ 31 → 0 ≤ b i → b i + q < 2 ^ 31 →
        (q - 1) * s < (N : Int) - r ∨ q = 0 → a' i = t ∧ b' i = b i + q := by
  fun_induction resetLoop N s (M - 1) M r a b with
  | case1 => omega
  | case2 r a b hr _ ih =>
    obtain ⟨a', b', he, h⟩ := ih
    refine ⟨a', b', he, ?_⟩
    intro i q t hq ht0 ht1 hq0 ha hb hbq hk
    by_cases hpos : q = 0
    · subst hpos
      have hna : ¬ (M - 1 < a i) := by rw [hq]; omega
      have e1 : (resetBody a b (M - 1) M).1 i = a i := by rw [resetBody_fst, if_neg hna]
      have e2 : (resetBody a b (M - 1) M).2 i = b i := by rw [resetBody_snd, if_neg hna]
      have := h i 0 t (by rw [e1]; exact hq) ht0 ht1 (Int.le_refl 0) (by rw [e1]; exact ha)
        (by rw [e2]; exact hb) (by rw [e2]; exact hbq) (Or.inr rfl)
      rw [e2] at this; exact this
    · have hq1 : 1 ≤ q := by omega
      have hqM : M ≤ q * M := by nlinarith
      have hpa : M - 1 < a i := by rw [hq]; omega
      have e1 : (resetBody a b (M - 1) M).1 i = (q - 1) * M + t := by
        rw [resetBody_fst, if_pos hpa, w32_id] <;> rw [hq]
        · ring
        · have : 0 ≤ q * M - M := by omega
          omega
        · omega
      have e2 : (resetBody a b (M - 1) M).2 i = b i + 1 := by
        rw [resetBody_snd, if_pos hpa, w32_id] <;> omega
      have hk' : (q - 1) * s < (N : Int) - r := by
        rcases hk with hk | hk
        · exact hk
        · exact absurd hk hpos
      have := h i (q - 1) t e1 ht0 ht1 (by omega)
        (by rw [e1]; have e : (q - 1) * M = q * M - M := by ring
            omega)
        (by rw [e2]; omega) (by rw [e2]; omega)
        (by
          have e : (q - 1 - 1) * (s : Int) = (q - 1) * s - s := by ring
          left; push_cast; omega)
      rw [e2] at this
      exact ⟨this.1, by omega⟩
  | case3 r a b hr =>
    refine ⟨a, b, rfl, ?_⟩
    intro i q t hq ht0 ht1 hq0 ha hb hbq hk
    have : q = 0 := by
      rcases hk with hk | hk
      · by_cases h : q = 0
        · exact h
        · exfalso
          have : 0 ≤ (q - 1) * (s : Int) := Int.mul_nonneg (by omega) (by omega)
          omega
      · exact hk
    subst this
    exact ⟨by omega, by omega⟩

theorem toSize_pos {a : Int} (h : 1 ≤ a) (h2 : a < 2 ^ 31) : (toSize a : Int) = a := by
  unfold toSize; omega

/-- `axisReset` for counts that are positive `int`s. -/
theorem axisReset_spec (N : Nat) (init : Bool) (a b : Lanes Int) (M S : Int) (hM : 1 ≤ M) (hM2 : M < 2 ^ 31)
    (hS : 1 ≤ S) (hS2 : S < 2 ^ 31) :
    ∃ a' b', axisReset N init a b M S = .ok (a', b') ∧
      ∀ i q t, a i = q * M + t → 0 ≤ t → t < M → 0 ≤ q → a i < 2 ^ 31 → 0 ≤ b i → b i + q < 2 ^ 31 →
        (if init then q * S < N else (q - 1) * S < N) ∨ q = 0 → a' i = t ∧ b' i = b i + q := by
  have hz := toSize_pos hS hS2
  have e : w32 (M - 1) = M - 1 := w32_id (by omega) (by omega)
  obtain ⟨a', b', he, h⟩ := resetLoop_spec N (toSize S) (by omega) M hM hM2 (if init then toSize S else 0) a b
  refine ⟨a', b', by unfold axisReset; rw [e]; exact he, ?_⟩
  intro i q t h1 h2 h3 h4 h5 h6 h7 h8
  refine h i q t h1 h2 h3 h4 h5 h6 h7 ?_
  rcases h8 with h8 | h8
  · left
    rw [hz]
    cases init
    · simp only [Bool.false_eq_true, if_false] at h8 ⊢; push_cast; omega
    · simp only [if_true] at h8 ⊢
      have : (q - 1) * S = q * S - S := by ring
      omega
  · exact Or.inr h8

/-! ### Storing -/

theorem laneList_length {F : Type} (N : Nat) (v : Lanes F) : (laneList N v).length = N := by simp [laneList]

theorem laneList_get {F : Type} (N : Nat) (v : Lanes F) (i : Nat) (h : i < N) : (laneList N v)[i]? = some (v i) := by
  simp [laneList, h]

/-- Writing the next `n` values of `f` after the first `k` have been written. -/
theorem store_next {F : Type} (f : Nat → F) (b0 : List F) (k n : Nat) (v : Lanes F) (hv : ∀ i < n, v i = f (k + i))
    (hlen : k + n ≤ b0.length) :
    store ((List.range k).map f ++ b0.drop k) (k : Int) (laneList n v) =
      .ok ((List.range (k + n)).map f ++ b0.drop (k + n)) := by
  have hl : ((List.range k).map f ++ b0.drop k).length = b0.length := by simp; omega
  unfold store
  rw [if_pos ⟨by omega, by rw [hl, laneList_length]; omega⟩]
  congr 1
  rw [laneList_length, Int.toNat_natCast, List.take_left' (by simp), List.drop_append]
  have e1 : List.drop (k + n) (List.map f (List.range k)) = [] := List.drop_eq_nil_of_le (by simp)
  rw [e1, List.nil_append, List.length_map, List.length_range, Nat.add_sub_cancel_left, List.drop_drop, List.range_add,
    List.map_append, List.map_map]
  have e2 : laneList n v = List.map (f ∘ fun x => k + x) (List.range n) := by
    unfold laneList
    exact List.map_congr_left (fun i hi => by simpa using hv i (by simpa using hi))
  rw [e2]

/-- Rewriting the last `n` of the first `T` values with the same values. -/
theorem store_last {F : Type} (f : Nat → F) (b0 : List F) (k T n : Nat) (v : Lanes F) (hv : ∀ i < n, v i = f (T - n + i))
    (hkT : k ≤ T) (hk : T - n ≤ k) (hn : n ≤ T) (hlen : T ≤ b0.length) :
    store ((List.range k).map f ++ b0.drop k) ((T : Int) - n) (laneList n v) =
      .ok ((List.range T).map f ++ b0.drop T) := by
  have hl : ((List.range k).map f ++ b0.drop k).length = b0.length := by simp; omega
  unfold store
  have e0 : ((T : Int) - n).toNat = T - n := by omega
  rw [if_pos ⟨by omega, by rw [hl, laneList_length]; omega⟩]
  congr 1
  rw [laneList_length, e0]
  have ek : k = (T - n) + (k - (T - n)) := by omega
  have e2 : laneList n v = List.map (f ∘ fun x => (T - n) + x) (List.range n) := by
    unfold laneList
    exact List.map_congr_left (fun i hi => by simpa using hv i (by simpa using hi))
  have e3 : List.take (T - n) ((List.range k).map f ++ b0.drop k) = (List.range (T - n)).map f := by
    rw [ek, List.range_add, List.map_append, List.append_assoc, List.take_left' (by simp)]
  have eT : T - n + n = T := by omega
  have e4 : List.drop (T - n + n) ((List.range k).map f ++ b0.drop k) = b0.drop T := by
    rw [eT, List.drop_append, List.drop_eq_nil_of_le (by simpa using hkT), List.nil_append, List.drop_drop]
    congr 1; simp; omega
  rw [e3, e4, e2]
  have : List.range T = List.range (T - n) ++ List.map (fun x => (T - n) + x) (List.range n) := by
    rw [← List.range_add, eT]
  rw [this, List.map_append, List.map_map]

section
variable {F : Type} [LinearOrder F] [BoundedOrder F]

/-- `m` is the exact minimum and maximum of the first `k` values of `f` (or the neutral element). -/
structure MMInv (f : Nat → F) (k : Nat) (m : MinMax F) : Prop where
  lo : ∀ j < k, m.min ≤ f j
  hi : ∀ j < k, f j ≤ m.max
  loMem : m.min = ⊤ ∨ ∃ j < k, m.min = f j
  hiMem : m.max = ⊥ ∨ ∃ j < k, m.max = f j

theorem MMInv.finish {f : Nat → F} {k : Nat} {m : MinMax F} (h : MMInv f k m) (hk : 0 < k) :
    (∃ j < k, m.min = f j) ∧ ∃ j < k, m.max = f j := by
  constructor
  · rcases h.loMem with e | e
    · exact ⟨0, hk, le_antisymm (h.lo 0 hk) (by rw [e]; exact le_top)⟩
    · exact e
  · rcases h.hiMem with e | e
    · exact ⟨0, hk, le_antisymm (by rw [e]; exact bot_le) (h.hi 0 hk)⟩
    · exact e

/-- The lanes of the running min/max cover the first `k` values of `f`. -/
structure LaneInv (f : Nat → F) (N k : Nat) (mn mx : Lanes F) : Prop where
  lo : ∀ j < k, ∃ i < N, mn i ≤ f j
  hi : ∀ j < k, ∃ i < N, f j ≤ mx i
  loMem : ∀ i < N, mn i = ⊤ ∨ ∃ j < k, mn i = f j
  hiMem : ∀ i < N, mx i = ⊥ ∨ ∃ j < k, mx i = f j

omit [BoundedOrder F] in
theorem min_cases' (a b : F) : min a b = a ∨ min a b = b := min_choice a b
omit [BoundedOrder F] in
theorem max_cases' (a b : F) : max a b = a ∨ max a b = b := max_choice a b

/-- A further register of `N` values at positions `base ..` extends the lanes from `k` to `k'` values. -/
theorem LaneInv.step {f : Nat → F} {N k k' : Nat} {mn mx g : Lanes F} (h : LaneInv f N k mn mx) (base : Nat)
    (hg : ∀ i < N, g i = f (base + i)) (hb : base ≤ k) (hk : k ≤ k') (hk' : k' = base + N) :
    LaneInv f N k' (fun i => min (mn i) (g i)) (fun i => max (mx i) (g i)) := by
  subst hk'
  refine ⟨?_, ?_, ?_, ?_⟩
  · intro j hj
    by_cases hjk : j < k
    · obtain ⟨i, hi, hle⟩ := h.lo j hjk
      exact ⟨i, hi, le_trans (min_le_left _ _) hle⟩
    · refine ⟨j - base, by omega, ?_⟩
      have := hg (j - base) (by omega)
      rw [show base + (j - base) = j by omega] at this
      show min (mn (j - base)) (g (j - base)) ≤ f j
      rw [← this]; exact min_le_right _ _
  · intro j hj
    by_cases hjk : j < k
    · obtain ⟨i, hi, hle⟩ := h.hi j hjk
      exact ⟨i, hi, le_trans hle (le_max_left _ _)⟩
    · refine ⟨j - base, by omega, ?_⟩
      have := hg (j - base) (by omega)
      rw [show base + (j - base) = j by omega] at this
      show f j ≤ max (mx (j - base)) (g (j - base))
      rw [← this]; exact le_max_right _ _
  · intro i hi
    rcases min_cases' (mn i) (g i) with e | e
    · rcases h.loMem i hi with e2 | ⟨j, hj, e2⟩
      · left; exact e.trans e2
      · right; exact ⟨j, by omega, e.trans e2⟩
    · right; exact ⟨base + i, by omega, e.trans (hg i hi)⟩
  · intro i hi
    rcases max_cases' (mx i) (g i) with e | e
    · rcases h.hiMem i hi with e2 | ⟨j, hj, e2⟩
      · left; exact e.trans e2
      · right; exact ⟨j, by omega, e.trans e2⟩
    · right; exact ⟨base + i, by omega, e.trans (hg i hi)⟩

theorem LaneInv.init (f : Nat → F) (N : Nat) : LaneInv f N 0 (fun _ => ⊤) (fun _ => ⊥) :=
  ⟨by omega, by omega, fun _ _ => Or.inl rfl, fun _ _ => Or.inl rfl⟩

/-- Folding merges the lanes. -/
theorem mergeLanes_spec (mn mx : Lanes F) (N : Nat) (m : MinMax F) :
    (mergeLanes N mn mx m).min ≤ m.min ∧ m.max ≤ (mergeLanes N mn mx m).max ∧
    (∀ i < N, (mergeLanes N mn mx m).min ≤ mn i ∧ mx i ≤ (mergeLanes N mn mx m).max) ∧
    ((mergeLanes N mn mx m).min = m.min ∨ ∃ i < N, (mergeLanes N mn mx m).min = mn i) ∧
    ((mergeLanes N mn mx m).max = m.max ∨ ∃ i < N, (mergeLanes N mn mx m).max = mx i) := by
  induction N with
  | zero => exact ⟨le_refl _, le_refl _, by omega, Or.inl rfl, Or.inl rfl⟩
  | succ n ih =>
    obtain ⟨h1, h2, h3, h4, h5⟩ := ih
    have e : mergeLanes (n + 1) mn mx m = (mergeLanes n mn mx m).merge ⟨mn n, mx n⟩ := by
      simp [mergeLanes, List.range_succ]
    rw [e]
    refine ⟨le_trans (min_le_left _ _) h1, le_trans h2 (le_max_left _ _), ?_, ?_, ?_⟩
    · intro i hi
      by_cases hin : i < n
      · exact ⟨le_trans (min_le_left _ _) (h3 i hin).1, le_trans (h3 i hin).2 (le_max_left _ _)⟩
      · have : i = n := by omega
        subst this
        exact ⟨min_le_right _ _, le_max_right _ _⟩
    · show min _ _ = _ ∨ _
      rcases min_cases' (mergeLanes n mn mx m).min (mn n) with e2 | e2
      · rcases h4 with h4 | ⟨i, hi, h4⟩
        · left; exact e2.trans h4
        · right; exact ⟨i, by omega, e2.trans h4⟩
      · right; exact ⟨n, by omega, e2⟩
    · show max _ _ = _ ∨ _
      rcases max_cases' (mergeLanes n mn mx m).max (mx n) with e2 | e2
      · rcases h5 with h5 | ⟨i, hi, h5⟩
        · left; exact e2.trans h5
        · right; exact ⟨i, by omega, e2.trans h5⟩
      · right; exact ⟨n, by omega, e2⟩

/-- Lanes covering `k` values merged with a result covering the values in `[k, T)`. -/
theorem mergeLanes_inv {f : Nat → F} {N k T : Nat} {mn mx : Lanes F} {m : MinMax F} (h : LaneInv f N k mn mx) (hkT : k ≤ T)
    (lo : ∀ j < T, k ≤ j → m.min ≤ f j) (hi : ∀ j < T, k ≤ j → f j ≤ m.max)
    (loMem : m.min = ⊤ ∨ ∃ j < T, m.min = f j) (hiMem : m.max = ⊥ ∨ ∃ j < T, m.max = f j) :
    MMInv f T (mergeLanes N mn mx m) := by
  obtain ⟨h1, h2, h3, h4, h5⟩ := mergeLanes_spec mn mx N m
  refine ⟨?_, ?_, ?_, ?_⟩
  · intro j hj
    by_cases hjk : j < k
    · obtain ⟨i, hi', hle⟩ := h.lo j hjk
      exact le_trans (h3 i hi').1 hle
    · exact le_trans h1 (lo j hj (by omega))
  · intro j hj
    by_cases hjk : j < k
    · obtain ⟨i, hi', hle⟩ := h.hi j hjk
      exact le_trans hle (h3 i hi').2
    · exact le_trans (hi j hj (by omega)) h2
  · rcases h4 with h4 | ⟨i, hi', h4⟩
    · rw [h4]; exact loMem
    · rw [h4]
      rcases h.loMem i hi' with e | ⟨j, hj, e⟩
      · exact Or.inl e
      · exact Or.inr ⟨j, by omega, e⟩
  · rcases h5 with h5 | ⟨i, hi', h5⟩
    · rw [h5]; exact hiMem
    · rw [h5]
      rcases h.hiMem i hi' with e | ⟨j, hj, e⟩
      · exact Or.inl e
      · exact Or.inr ⟨j, by omega, e⟩

/-- The closing `do … while`. -/
theorem minMaxTail_spec (f : Nat → F) (b0 : List F) (T : Nat) (d : Nat) : ∀ (k : Nat) (m : MinMax F), k + (d + 1) = T →
    ∃ m', minMaxTail ((List.range T).map f ++ b0) T k m = .ok m' ∧ m'.min ≤ m.min ∧ m.max ≤ m'.max ∧
      (∀ j < T, k ≤ j → m'.min ≤ f j ∧ f j ≤ m'.max) ∧ (m'.min = m.min ∨ ∃ j < T, m'.min = f j) ∧
      (m'.max = m.max ∨ ∃ j < T, m'.max = f j) := by
  induction d with
  | zero =>
    intro k m h
    have hl : load1 ((List.range T).map f ++ b0) (k : Int) = .ok (f k) := by
      unfold load1
      rw [if_pos (by omega), Int.toNat_natCast, List.getElem?_append_left (by simp; omega)]
      simp [show k < T by omega]
    unfold minMaxTail
    rw [hl]
    simp only
    rw [if_neg (by omega)]
    refine ⟨_, rfl, min_le_left _ _, le_max_left _ _, ?_, ?_, ?_⟩
    · intro j hj hjk
      have : j = k := by omega
      subst this
      exact ⟨min_le_right _ _, le_max_right _ _⟩
    · rcases min_cases' m.min (f k) with e | e
      · exact Or.inl e
      · exact Or.inr ⟨k, by omega, e⟩
    · rcases max_cases' m.max (f k) with e | e
      · exact Or.inl e
      · exact Or.inr ⟨k, by omega, e⟩
  | succ d ih =>
    intro k m h
    have hl : load1 ((List.range T).map f ++ b0) (k : Int) = .ok (f k) := by
      unfold load1
      rw [if_pos (by omega), Int.toNat_natCast, List.getElem?_append_left (by simp; omega)]
      simp [show k < T by omega]
    unfold minMaxTail
    rw [hl]
    simp only
    rw [if_pos (by omega)]
    obtain ⟨m', he, h1, h2, h3, h4, h5⟩ := ih (k + 1) (m.addValue (f k)) (by omega)
    refine ⟨m', by push_cast at he; exact he, le_trans h1 (min_le_left _ _), le_trans (le_max_left _ _) h2, ?_, ?_, ?_⟩
    · intro j hj hjk
      by_cases hjk2 : j = k
      · subst hjk2
        exact ⟨le_trans h1 (min_le_right _ _), le_trans (le_max_right _ _) h2⟩
      · exact h3 j hj (by omega)
    · rcases h4 with h4 | h4
      · rcases min_cases' m.min (f k) with e | e
        · exact Or.inl (h4.trans e)
        · exact Or.inr ⟨k, by omega, h4.trans e⟩
      · exact Or.inr h4
    · rcases h5 with h5 | h5
      · rcases max_cases' m.max (f k) with e | e
        · exact Or.inl (h5.trans e)
        · exact Or.inr ⟨k, by omega, h5.trans e⟩
      · exact Or.inr h5

/-- `StoreRemaining` completes the output. -/
theorem storeRemaining_spec (f : Nat → F) (b0 : List F) (N k T : Nat) (lr : Bool) (mn mx fin : Lanes F)
    (h : LaneInv f N k mn mx) (hk : k < T) (hT : T ≤ k + N) (hlen : T ≤ b0.length)
    (hfin : (lr = true → k = 0) → ∀ i, k + i < T → fin i = f (k + i))
    (hlr : lr = true → k ≠ 0 → N ≤ T ∧ ∀ i < N, fin i = f (T - N + i)) :
    ∃ m, storeRemaining N lr ((List.range k).map f ++ b0.drop k) T k mn mx fin =
        .ok ((List.range T).map f ++ b0.drop T, m) ∧ MMInv f T m := by
  unfold storeRemaining
  simp only
  by_cases hc : (if lr = true then (k : Int) = 0 else (T : Int) - k ≠ N)
  · rw [if_pos hc, if_neg (by omega)]
    have hk0 : lr = true → k = 0 := by
      intro hl; rw [if_pos hl] at hc; omega
    have hfin := hfin hk0
    have e1 : ((T : Int) - k).toNat = T - k := by omega
    rw [e1, store_next f b0 k (T - k) fin (fun i hi => hfin i (by omega)) (by omega)]
    have e2 : k + (T - k) = T := by omega
    rw [e2]
    obtain ⟨m', he, h1, h2, h3, h4, h5⟩ := minMaxTail_spec f (b0.drop T) T (T - k - 1) k MinMax.init (by omega)
    refine ⟨mergeLanes N mn mx m', ?_, ?_⟩
    · show (do let m ← minMaxTail _ _ _ _; pure _) = _
      rw [he]; rfl
    · refine mergeLanes_inv h (by omega) (fun j hj hjk => (h3 j hj hjk).1) (fun j hj hjk => (h3 j hj hjk).2) h4 h5
  · rw [if_neg hc]
    cases lr
    · simp only [Bool.false_eq_true, if_false, ne_eq, not_not] at hc
      have e : (T : Int) - N = k := by omega
      rw [e, store_next f b0 k N fin (fun i hi => hfin (by simp) i (by omega)) (by omega)]
      have e2 : k + N = T := by omega
      rw [e2]
      refine ⟨_, rfl, ?_⟩
      refine mergeLanes_inv (k := T) (T := T) ?_ (le_refl T) (by omega) (by omega) (Or.inl rfl) (Or.inl rfl)
      exact h.step k (fun i hi => hfin (by simp) i (by omega)) (le_refl k) (by omega) e2.symm
    · simp only [if_true] at hc
      obtain ⟨hNT, hf⟩ := hlr rfl (by omega)
      rw [store_last f b0 k T N fin hf (by omega) (by omega) hNT hlen]
      refine ⟨_, rfl, ?_⟩
      refine mergeLanes_inv (k := T) (T := T) ?_ (le_refl T) (by omega) (by omega) (Or.inl rfl) (Or.inl rfl)
      exact h.step (T - N) hf (by omega) (by omega) (by omega)

/-- The main loop writes the values of `f` register by register. `P l k`: lanes `l` are ready for output `k`. -/
theorem mainLoop_spec {L : Type} (N : Nat) (hN : 0 < N) (f : Nat → F) (b0 : List F) (T : Nat) (hlen : T ≤ b0.length)
    (adv : L → Except Err L) (val : L → Int → Except Err (Lanes F)) (P : L → Nat → Prop)
    (hval : ∀ l k, P l k → k + N < T → ∃ g, val l k = .ok g ∧ ∀ i < N, g i = f (k + i))
    (hadv : ∀ l k, P l k → k + N < T → ∃ l', adv l = .ok l' ∧ P l' (k + N)) (n : Nat) :
    ∀ (s : LoopSt L F) (k : Nat), T - k = n → s.index = k → k < T → P s.lanes k → (k = 0 ∨ N ≤ k) →
      s.buf = (List.range k).map f ++ b0.drop k → LaneInv f N k s.mn s.mx →
      ∃ s' k', mainLoop N hN T adv val s = .ok s' ∧ s'.index = (k' : Nat) ∧ k' < T ∧ T ≤ k' + N ∧ P s'.lanes k' ∧
        (k' = 0 ∨ N ≤ k') ∧ s'.buf = (List.range k').map f ++ b0.drop k' ∧ LaneInv f N k' s'.mn s'.mx := by
  induction n using Nat.strongRecOn with
  | _ n ih =>
    intro s k hn hi hk hP hk0 hb hm
    by_cases hc : k + N < T
    · obtain ⟨g, hg, hgf⟩ := hval _ _ hP hc
      obtain ⟨l', hl, hP'⟩ := hadv _ _ hP hc
      have hst : store s.buf s.index (laneList N g) = .ok ((List.range (k + N)).map f ++ b0.drop (k + N)) := by
        rw [hi, hb]; exact store_next f b0 k N g hgf (by omega)
      unfold mainLoop
      rw [if_pos (by omega)]
      rw [hi] at hst
      rw [hi, hg]
      simp only
      rw [hst]
      simp only
      rw [hl]
      simp only
      refine ih (T - (k + N)) (by omega) _ (k + N) rfl (by push_cast; rfl) hc hP' (Or.inr (by omega)) rfl ?_
      exact hm.step k hgf (le_refl k) (by omega) rfl
    · refine ⟨s, k, ?_, hi, hk, by omega, hP, hk0, hb, hm⟩
      unfold mainLoop
      rw [if_neg (by omega)]

/-- Result specification shared by all batch functions: the first `T` outputs are `f 0 .. f (T-1)`, the rest
of the caller's array is unchanged and min/max are exact. -/
theorem run_spec {L : Type} (N : Nat) (hN : 0 < N) (f : Nat → F) (b0 : List F) (T : Nat) (hT : 0 < T) (hlen : T ≤ b0.length)
    (adv : L → Except Err L) (val : L → Nat → F) (P : L → Nat → Prop)
    (hval : ∀ l k i, P l k → i < N → k + i < T → val l i = f (k + i))
    (hadv : ∀ l k, P l k → k + N < T → ∃ l', adv l = .ok l' ∧ P l' (k + N)) (l0 : L) (h0 : P l0 0) :
    ∃ m, (do
        let s ← mainLoop N hN T adv (fun l _ => .ok (val l)) (start l0 b0)
        storeRemaining N false s.buf T s.index s.mn s.mx (val s.lanes)) =
      .ok ((List.range T).map f ++ b0.drop T, m) ∧ MMInv f T m := by
  obtain ⟨s, k, he, hi, hk, hkN, hP, hk0, hb, hm⟩ := mainLoop_spec N hN f b0 T hlen adv (fun l _ => .ok (val l)) P
    (fun l k hP hc => ⟨val l, rfl, fun i hi => hval l k i hP hi (by omega)⟩) hadv T (start l0 b0) 0 (by omega) rfl hT h0
    (Or.inl rfl) (by simp [start]) (LaneInv.init f N)
  rw [he]
  obtain ⟨m, hr, hmm⟩ := storeRemaining_spec f b0 N k T false s.mn s.mx (val s.lanes) hm hk hkN hlen
    (fun _ i hi => hval _ _ _ hP (by omega) hi) (by simp)
  refine ⟨m, ?_, hmm⟩
  show storeRemaining N false s.buf T s.index s.mn s.mx (val s.lanes) = _
  rw [hi, hb, hr]

end
end FastNoise.Grid

namespace FastNoise.Grid

/-- One axis of stride `D` and size `M`: lane `i` moves from linear index `J i` to `J i + n i`.  Before, `a` holds the
old coordinate plus the carry of the inner axes and `b` any number; after, `a` is the new coordinate and the carry is
added to `b`. -/
theorem axis_step (N : Nat) (init : Bool) (a b : Lanes Int) (D M T : Nat) (hD : 0 < D) (hM : 0 < M) (hDM : D * M < 2 ^ 31)
    (hT : T < 2 ^ 31) (V : Nat → Prop) (J n B : Nat → Nat)
    (ha : ∀ i, V i → a i = (((J i / D) % M + ((J i + n i) / D - J i / D) : Nat) : Int))
    (hb : ∀ i, V i → b i = (B i : Int)) (hB : ∀ i, V i → B i ≤ J i / (D * M))
    (hV : ∀ i, V i → J i + n i < T ∧ (if init then J i = 0 ∧ n i < N else n i = N)) :
    ∃ a' b', axisReset N init a b (M : Int) ((D * M : Nat) : Int) = .ok (a', b') ∧
      ∀ i, V i → a' i = (((J i + n i) / D % M : Nat) : Int) ∧
        b' i = ((B i + ((J i + n i) / (D * M) - J i / (D * M)) : Nat) : Int) := by
  have hMD : M ≤ D * M := Nat.le_mul_of_pos_left M hD
  have hDMp : 1 ≤ D * M := Nat.mul_pos hD hM
  obtain ⟨a', b', he, h⟩ := axisReset_spec N init a b (M : Int) ((D * M : Nat) : Int) (by omega) (by omega) (by omega) (by omega)
  refine ⟨a', b', he, ?_⟩
  intro i hi
  obtain ⟨hlt, hn⟩ := hV i hi
  -- quotient and carry in Nat
  have hmono : J i / D ≤ (J i + n i) / D := Nat.div_le_div_right (by omega)
  have e1 : J i / (D * M) = J i / D / M := (Nat.div_div_eq_div_mul ..).symm
  have e2 : (J i + n i) / (D * M) = (J i + n i) / D / M := (Nat.div_div_eq_div_mul ..).symm
  have ha' := ha i hi
  generalize hA : J i / D = A at *
  generalize hA' : (J i + n i) / D = A' at *
  have hA'le : A' ≤ J i + n i := by rw [← hA']; exact Nat.div_le_self _ _
  have hdm : M * (A / M) + A % M = A := Nat.div_add_mod A M
  have hqt : A % M + (A' - A) = A' - M * (A / M) := by omega
  have hq : (A % M + (A' - A)) / M = A' / M - A / M := by
    rw [hqt, Nat.sub_mul_div_of_le]
    exact le_trans (by omega) hmono
  have ht : (A % M + (A' - A)) % M = A' % M := by
    rw [hqt]
    exact Nat.sub_mul_mod (by omega)
  have hmono2 : A / M ≤ A' / M := Nat.div_le_div_right hmono
  have hdm2 : M * (A' / M) + A' % M = A' := Nat.div_add_mod A' M
  have hA'M : A' / M ≤ A' := Nat.div_le_self _ _
  have hBB : B i ≤ A / M := by have := hB i hi; rw [e1] at this; exact this
  have key := h i ((A' / M - A / M : Nat) : Int) ((A' % M : Nat) : Int)
    (by
      rw [ha']
      have := Nat.div_add_mod (A % M + (A' - A)) M
      rw [hq, ht] at this
      rw [← this]; push_cast; ring)
    (by omega) (by exact_mod_cast Nat.mod_lt _ hM) (by omega)
    (by rw [ha']; omega)
    (by rw [hb i hi]; omega)
    (by rw [hb i hi]; omega)
    (by
      left
      -- stride times quotient
      have s1 : D * A ≤ J i := by rw [← hA]; exact Nat.mul_div_le _ _
      have s2 : D * A' ≤ J i + n i := by rw [← hA']; exact Nat.mul_div_le _ _
      have s3 : J i < D * A + D := by rw [← hA]; exact Nat.lt_mul_div_succ _ hD
      have s4 : (A' / M - A / M) * (D * M) ≤ D * (A % M) + D * (A' - A) := by
        have : (A' / M - A / M) * M ≤ A % M + (A' - A) := by
          rw [← hq]; exact Nat.div_mul_le_self _ _
        calc (A' / M - A / M) * (D * M) = D * ((A' / M - A / M) * M) := by ring
          _ ≤ D * (A % M + (A' - A)) := Nat.mul_le_mul_left _ this
          _ = _ := by ring
      have s5 : D * (A' - A) + D * A = D * A' := by
        rw [← Nat.mul_add]; congr 1; omega
      have s6 : D * (A % M) + D ≤ D * M := by
        have : A % M + 1 ≤ M := Nat.mod_lt _ hM
        calc D * (A % M) + D = D * (A % M + 1) := by ring
          _ ≤ _ := Nat.mul_le_mul_left _ this
      have cast1 : ((A' / M - A / M : Nat) : Int) * ((D * M : Nat) : Int) = (((A' / M - A / M) * (D * M) : Nat) : Int) := by
        push_cast; rfl
      cases init
      · simp only [Bool.false_eq_true, if_false] at hn ⊢
        rw [Int.sub_mul, cast1, Int.one_mul]
        omega
      · simp only [if_true] at hn ⊢
        rw [cast1]
        have hA0 : A = 0 := by rw [← hA, hn.1]; simp
        subst hA0
        simp only [Nat.zero_mod, Nat.mul_zero] at s4 s5
        omega)
  rw [hb i hi] at key
  refine ⟨key.1, ?_⟩
  rw [key.2, e1, e2]
  push_cast; rfl

end FastNoise.Grid
