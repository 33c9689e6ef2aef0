import Verif.Cellular
import Verif.NumLemmas
import Mathlib.Data.List.Sort
import Mathlib.Data.List.GetD
/-! # Lemmas on cellular scanning -/
namespace FastNoise.Cellular
open FastNoise.Hash FastNoise.Num FastNoise.Basic

section scan
variable {D H : Type} [LinearOrder D]

/-- Unbounded version of `insertValue`. -/
def bubble (new : D × H) : List (D × H) → List (D × H)
  | [] => [new]
  | d :: r => (if new.1 < d.1 then new else d) :: bubble (if new.1 < d.1 then d else new) r

theorem bubble_perm (x : D × H) (l : List (D × H)) : (bubble x l).Perm (x :: l) := by
  induction l generalizing x with
  | nil => simp [bubble]
  | cons d r ih =>
    unfold bubble
    split
    · exact (ih d).cons x
    · exact ((ih x).cons d).trans (List.Perm.swap x d r)

theorem bubble_sorted (x : D × H) (l : List (D × H)) (h : l.Pairwise (fun a b => a.1 ≤ b.1)) :
    (bubble x l).Pairwise (fun a b => a.1 ≤ b.1) := by
  induction l generalizing x with
  | nil => simp [bubble]
  | cons d r ih =>
    rw [List.pairwise_cons] at h
    unfold bubble
    split
    · rename_i hlt
      refine List.pairwise_cons.mpr ⟨?_, ih d h.2⟩
      intro b hb
      rcases List.mem_cons.mp ((bubble_perm d r).mem_iff.mp hb) with rfl | hb
      · exact hlt.le
      · exact hlt.le.trans (h.1 b hb)
    · rename_i hlt
      refine List.pairwise_cons.mpr ⟨?_, ih x h.2⟩
      intro b hb
      rcases List.mem_cons.mp ((bubble_perm x r).mem_iff.mp hb) with rfl | hb
      · exact not_lt.mp hlt
      · exact h.1 b hb

theorem bubble_take (m : Nat) (x : D × H) (l : List (D × H)) : (bubble x (l.take m)).take m = (bubble x l).take m := by
  induction l generalizing x m with
  | nil => simp
  | cons d r ih =>
    cases m with
    | zero => simp
    | succ m => simp only [List.take_succ_cons, bubble]; rw [ih]

theorem insertValue_length (k : Nat) (x : D × H) (l : List (D × H)) : (insertValue k x l).length = l.length := by
  induction l generalizing k x with
  | nil => cases k <;> rfl
  | cons d r ih => cases k <;> simp [insertValue, ih]

theorem insertValue_take (k : Nat) (x : D × H) (l : List (D × H)) (h : k < l.length) :
    (insertValue k x l).take (k + 1) = (bubble x l).take (k + 1) := by
  induction l generalizing k x with
  | nil => simp at h
  | cons d r ih =>
    cases k with
    | zero => simp [insertValue, bubble]
    | succ k =>
      simp only [insertValue, bubble, List.take_succ_cons]
      congr 1
      exact ih k _ (by simpa using h)

theorem foldl_insertValue_take (k : Nat) (pts l : List (D × H)) (h : k < l.length) :
    (pts.foldl (fun a p => insertValue k p a) l).take (k + 1) = (pts.foldl (fun a p => bubble p a) l).take (k + 1) := by
  have : ∀ (pts a b : List (D × H)), k < a.length → a.take (k + 1) = b.take (k + 1) →
      (pts.foldl (fun a p => insertValue k p a) a).take (k + 1) = (pts.foldl (fun a p => bubble p a) b).take (k + 1) := by
    intro pts
    induction pts with
    | nil => intro a b _ e; simpa using e
    | cons p t ih =>
      intro a b ha e
      refine ih _ _ (by rw [insertValue_length]; exact ha) ?_
      rw [insertValue_take k p a ha, ← bubble_take, e, bubble_take]
  exact this pts l l h rfl

theorem foldl_bubble_perm (pts l : List (D × H)) : (pts.foldl (fun a p => bubble p a) l).Perm (pts ++ l) := by
  induction pts generalizing l with
  | nil => simp
  | cons p t ih =>
    refine (ih _).trans ?_
    refine ((bubble_perm p l).append_left t).trans ?_
    simp

theorem foldl_bubble_sorted (pts l : List (D × H)) (h : l.Pairwise (fun a b => a.1 ≤ b.1)) :
    (pts.foldl (fun a p => bubble p a) l).Pairwise (fun a b => a.1 ≤ b.1) := by
  induction pts generalizing l with
  | nil => simpa
  | cons p t ih => exact ih _ (bubble_sorted p l h)

/-- Bubbling a finite entry into a list followed by infinite ones. -/
theorem bubble_append_top [OrderTop D] (x : D × H) (s t : List (D × H)) (hx : x.1 < ⊤) (hs : ∀ p ∈ s, p.1 < ⊤) (ht : ∀ p ∈ t, p.1 = ⊤) :
    ∃ t', bubble x (s ++ t) = bubble x s ++ t' ∧ ∀ p ∈ t', p.1 = ⊤ := by
  induction s generalizing x with
  | nil =>
    cases t with
    | nil => exact ⟨[], by simp [bubble], by simp⟩
    | cons d r =>
      have hd : d.1 = ⊤ := ht d (by simp)
      refine ⟨bubble d r, by simp [bubble, hd, hx], ?_⟩
      intro p hp
      exact ht p ((bubble_perm d r).mem_iff.mp hp)
  | cons d r ih =>
    simp only [List.cons_append, bubble]
    obtain ⟨t', h1, h2⟩ := ih (if x.1 < d.1 then d else x) (by split <;> [exact hs d (by simp); exact hx]) (fun p hp => hs p (by simp [hp]))
    exact ⟨t', by rw [h1], h2⟩

theorem foldl_bubble_append_top [OrderTop D] (pts s t : List (D × H)) (hp : ∀ p ∈ pts, p.1 < ⊤) (hs : ∀ p ∈ s, p.1 < ⊤) (ht : ∀ p ∈ t, p.1 = ⊤) :
    ∃ t', pts.foldl (fun a p => bubble p a) (s ++ t) = pts.foldl (fun a p => bubble p a) s ++ t' := by
  induction pts generalizing s t with
  | nil => exact ⟨t, rfl⟩
  | cons p r ih =>
    obtain ⟨t', h1, h2⟩ := bubble_append_top p s t (hp p (by simp)) hs ht
    rw [List.foldl_cons, List.foldl_cons, h1]
    refine ih _ _ (fun q hq => hp q (by simp [hq])) ?_ h2
    intro q hq
    rcases List.mem_cons.mp ((bubble_perm p s).mem_iff.mp hq) with rfl | h
    · exact hp q (by simp)
    · exact hs q h

theorem bubble_map {E : Type} [LinearOrder E] (f : D → E) (hf : StrictMono f) (x : D × H) (l : List (D × H)) :
    bubble (f x.1, x.2) (l.map fun p => (f p.1, p.2)) = (bubble x l).map fun p => (f p.1, p.2) := by
  induction l generalizing x with
  | nil => simp [bubble]
  | cons d r ih =>
    simp only [List.map_cons, bubble, hf.lt_iff_lt]
    split <;> rw [ih]

theorem foldl_bubble_map {E : Type} [LinearOrder E] (f : D → E) (hf : StrictMono f) (pts l : List (D × H)) :
    (pts.map fun p => (f p.1, p.2)).foldl (fun a p => bubble p a) (l.map fun p => (f p.1, p.2)) =
    (pts.foldl (fun a p => bubble p a) l).map fun p => (f p.1, p.2) := by
  induction pts generalizing l with
  | nil => simp
  | cons p t ih => rw [List.map_cons, List.foldl_cons, bubble_map f hf, ih, List.foldl_cons]

/-! Distances -/

theorem maxMinLoop_eq (new : D) (n : Nat) (d : Nat → D) (i : Nat) :
    maxMinLoop new n d i = if 0 < i ∧ i ≤ n then max (min (d i) new) (d (i - 1)) else d i := by
  induction n generalizing d with
  | zero => rw [maxMinLoop, if_neg (by omega)]
  | succ n ih =>
    rw [maxMinLoop, ih]
    by_cases h1 : 0 < i ∧ i ≤ n
    · rw [if_pos h1, if_pos ⟨h1.1, by omega⟩, Function.update_of_ne (by omega), Function.update_of_ne (by omega)]
    · rw [if_neg h1]
      by_cases h2 : i = n + 1
      · subst h2; simp
      · rw [Function.update_of_ne h2, if_neg (by omega)]

theorem insertDistance_eq (d : Nat → D) (new : D) (i : Nat) (hi : i < 4) :
    insertDistance d new i = if i = 0 then min (d 0) new else max (min (d i) new) (d (i - 1)) := by
  unfold insertDistance
  by_cases h : i = 0
  · subst h; simp [maxMinLoop_eq]
  · rw [Function.update_of_ne h, maxMinLoop_eq, if_pos (by omega), if_neg h]

theorem orderedInsert_getD [OrderTop D] (x : D) (l : List D) (h : l.Pairwise (· ≤ ·)) (i : Nat) :
    (l.orderedInsert (· ≤ ·) x).getD i ⊤ = if i = 0 then min (l.getD 0 ⊤) x else max (min (l.getD i ⊤) x) (l.getD (i - 1) ⊤) := by
  induction l generalizing i with
  | nil => rcases i with _ | _ | i <;> simp
  | cons b t ih =>
    rw [List.pairwise_cons] at h
    rw [List.orderedInsert_cons]
    have hb : ∀ j, b ≤ t.getD j ⊤ := by
      intro j
      by_cases hj : j < t.length
      · rw [List.getD_eq_getElem _ _ hj]; exact h.1 _ (List.getElem_mem hj)
      · rw [List.getD_eq_default _ _ (by omega)]; exact le_top
    split
    · rename_i hx
      rcases i with _ | _ | i
      · simp [hx]
      · simp only [List.getD_cons_succ, List.getD_cons_zero, Nat.zero_add, Nat.sub_self]
        rw [if_neg (by omega), max_eq_right ((min_le_right _ _).trans hx)]
      · simp only [List.getD_cons_succ]
        rw [if_neg (by omega)]
        show t.getD i ⊤ = max (min (t.getD (i + 1) ⊤) x) (List.getD (b :: t) (i + 1) ⊤)
        rw [List.getD_cons_succ, max_eq_right ((min_le_right _ _).trans (hx.trans (hb i)))]
    · rename_i hx
      have hx := (not_le.mp hx).le
      rcases i with _ | _ | i
      · simp [hx]
      · simp only [List.getD_cons_succ, List.getD_cons_zero]
        rw [ih h.2 0, if_pos rfl, if_neg (by omega)]
        simp only [Nat.zero_add, Nat.sub_self, List.getD_cons_zero]
        rw [max_eq_left (le_min (hb 0) hx)]
      · simp only [List.getD_cons_succ]
        rw [ih h.2 (i + 1), if_neg (by omega), if_neg (by omega)]
        simp

theorem foldl_insertDistance [OrderTop D] (pts l : List D) (d : Nat → D) (hl : l.Pairwise (· ≤ ·)) (hd : ∀ i < 4, d i = l.getD i ⊤) :
    ∃ l' : List D, l'.Perm (pts ++ l) ∧ l'.Pairwise (· ≤ ·) ∧ ∀ i < 4, pts.foldl insertDistance d i = l'.getD i ⊤ := by
  induction pts generalizing l d with
  | nil => exact ⟨l, by simp, hl, hd⟩
  | cons p t ih =>
    obtain ⟨l', h1, h2, h3⟩ := ih (l.orderedInsert (· ≤ ·) p) (insertDistance d p) (List.Pairwise.orderedInsert p l hl) (by
      intro i hi
      rw [insertDistance_eq _ _ _ hi, orderedInsert_getD _ _ hl]
      split
      · rw [hd 0 (by omega)]
      · rw [hd i hi, hd (i - 1) (by omega)])
    refine ⟨l', h1.trans ?_, h2, h3⟩
    exact ((List.perm_orderedInsert (· ≤ ·) p l).append_left t).trans (by simp)

theorem foldl_insertLookup (pts : List (D × H)) (b : D × H) :
    ∃ q ∈ b :: pts, pts.foldl insertLookup b = q ∧ ∀ p ∈ b :: pts, q.1 ≤ p.1 := by
  induction pts generalizing b with
  | nil => exact ⟨b, by simp⟩
  | cons p t ih =>
    obtain ⟨q, h1, h2, h3⟩ := ih (insertLookup b p)
    have hb : insertLookup b p = if p.1 < b.1 then p else b := by
      unfold insertLookup
      split
      · rename_i h; rw [min_eq_left h.le]
      · rename_i h; rw [min_eq_right (not_lt.mp h)]
    rw [List.foldl_cons]
    refine ⟨q, ?_, h2, ?_⟩
    · rcases List.mem_cons.mp h1 with h | h
      · rw [h, hb]; split <;> simp
      · simp [h]
    · intro r hr
      have h0 := h3 _ (List.mem_cons_self)
      rw [hb] at h0
      rcases List.mem_cons.mp hr with rfl | hr
      · split at h0
        · rename_i h; exact h0.trans h.le
        · exact h0
      · rcases List.mem_cons.mp hr with rfl | hr
        · split at h0
          · exact h0
          · rename_i h; exact h0.trans (not_lt.mp h)
        · exact h3 r (by simp [hr])

end scan

theorem nested_length (l : List (List (ℝ × I32))) : (nested l).length = (l.map List.length).prod := by
  induction l with
  | nil => rfl
  | cons a r ih =>
    simp only [nested, List.length_flatMap, List.map_cons, List.prod_cons, List.length_map, ih]
    induction a with
    | nil => simp
    | cons b t ih2 => simp [ih2]; ring

theorem visited_length (scaled : Pos) (h : scaled.length ≤ 4) : (visited scaled).length = 3 ^ scaled.length := by
  unfold visited
  rw [nested_length]
  have e : (List.zipWith axisCells scaled primes).map List.length = List.replicate scaled.length 3 := by
    apply List.ext_getElem
    · simp [primes]; omega
    · intro i h1 h2
      simp [axisCells]
  rw [e, List.prod_replicate]

theorem scanned_length (relaxed doSqrt : Bool) (c : Cfg) (seed : I32) (pos : Pos) (h : pos.length ≤ 4) :
    (scanned relaxed doSqrt c seed pos).length = 3 ^ pos.length := by
  unfold scanned
  rw [List.length_map, visited_length _ (by simpa [scalePositions] using h)]
  simp [scalePositions]

end FastNoise.Cellular
