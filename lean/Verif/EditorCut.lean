import Verif.EditorAnyFile
import Verif.EditorFloat
/-! # Saved files, and what is left of them after a crash -/
namespace FastNoise.Editor
open FastNoise.Ser FastNoise.Deser FastNoise.Stream FastNoise.Spec FastNoise.RT
open Relation

/-! ## Digits cut off -/

theorem scanU_digits {f n : Nat} (hf : 0 < f) (hn : n < 10 ^ f) (rest : List Char) (h : NoDig rest) : scanU (digits f n ++ rest) = some (n, rest) := by
  obtain ⟨k, cs, hk, e⟩ := digits_head f n hf hn
  have h1 : scanDigits 0 (digits f n ++ rest) = (n, rest) := by
    rw [scanDigits_digits _ _ hn hf, scanDigits_stop h]; simp
  rw [e] at h1 ⊢
  rw [List.cons_append] at h1 ⊢
  rw [scanU, (digit_spec hk).1, h1]; rfl

theorem prefix_digits : ∀ (f n : Nat), 0 < f → n < 10 ^ f → ∀ p, p <+: digits f n → p ≠ [] → ∃ m, m ≤ n ∧ (1 ≤ n → 1 ≤ m) ∧ scanU p = some (m, []) ∧ ∃ k cs, k < 10 ∧ p = digit k :: cs := by
  intro f
  induction f with
  | zero => intro n h; omega
  | succ f ih =>
    intro n hf hn p hp hne
    have hwhole : p = digits (f + 1) n → ∃ m, m ≤ n ∧ (1 ≤ n → 1 ≤ m) ∧ scanU p = some (m, []) ∧ ∃ k cs, k < 10 ∧ p = digit k :: cs := by
      intro e
      refine ⟨n, le_refl _, fun h => h, ?_, ?_⟩
      · have := scanU_digits hf hn [] noDig_nil
        rw [List.append_nil] at this
        rw [e]; exact this
      · rw [e]; exact digits_head _ _ hf hn
    rw [digits] at hp
    split_ifs at hp with h
    · refine hwhole ?_
      rw [digits, if_pos h]
      cases p with
      | nil => exact absurd rfl hne
      | cons a as =>
        obtain ⟨e, h2⟩ := List.cons_prefix_cons.mp hp
        rw [e, List.prefix_nil.mp h2]
    · have hf' : 0 < f := by
        rcases Nat.eq_zero_or_pos f with rfl | h'
        · simp at hn; omega
        · exact h'
      rcases List.prefix_concat_iff.mp hp with e | h'
      · exact hwhole (by rw [digits, if_neg h]; exact e)
      · obtain ⟨m, m1, m2, m3, m4⟩ := ih (n / 10) hf' (by rw [pow_succ] at hn; omega) p h' hne
        exact ⟨m, le_trans m1 (Nat.div_le_self _ _), fun _ => m2 (by omega), m3, m4⟩

/-- What is read of an id that was cut off. -/
theorem cut_id {id : Nat} (h : 1 ≤ id ∧ id ≤ maxId) {l : List Char} (hl : l <+: "id=".toList ++ printD (UInt32.ofNat id)) {v : UInt32} (hv : scan1D "id=".toList l = some v) :
    1 ≤ v.toNat ∧ v.toNat ≤ maxId := by
  obtain ⟨p, rfl⟩ := scan1D_starts hv
  have hp : p <+: printD (UInt32.ofNat id) := (List.prefix_append_right_inj _).mp hl
  have hmax := maxId_eq
  have hid : (UInt32.ofNat id).toNat = id := by rw [UInt32.toNat_ofNat']; exact Nat.mod_eq_of_lt (by omega)
  rw [printD, hid, if_pos (by omega), dec] at hp
  rw [scan1D, lit_self, Option.bind_some] at hv
  by_cases hne : p = []
  · subst hne; simp [scanD, scanSign, scanU] at hv
  · obtain ⟨m, m1, m2, m3, k, cs, hk, e⟩ := prefix_digits _ _ (by omega) (dec_fuel id) p hp hne
    unfold scanD at hv
    rw [e] at hv m3
    rw [scanSign_digit hk] at hv
    simp only [m3, Option.map_some, Bool.false_eq_true, if_false] at hv
    cases hv
    have : (UInt32.ofNat m).toNat = m := by rw [UInt32.toNat_ofNat']; exact Nat.mod_eq_of_lt (by omega)
    rw [this]
    exact ⟨m2 h.1, by omega⟩

/-! ## The lines of a section -/

theorem starts_key {key : String} {line : List Char} (h : lit key.toList line = none) : ¬ Starts key line := by
  rintro ⟨t, rfl⟩
  rw [lit_self] at h; cases h

theorem member_not_id {st : Ed} {nd : NodeData} {l : List Char} (h : l ∈ memberLines st nd) : ¬ Starts "id=" l := by
  unfold memberLines at h
  rw [List.mem_append, List.mem_append] at h
  rcases h with (h | h) | h
  · obtain ⟨v, _, rfl⟩ := List.mem_map.mp h; exact starts_key rfl
  · obtain ⟨v, _, rfl⟩ := List.mem_map.mp h; exact starts_key rfl
  · obtain ⟨v, _, rfl⟩ := List.mem_map.mp h; exact starts_key rfl

theorem place_dead (x : List Char) : ¬ Starts "variable=" ("grid_pos=".toList ++ x) ∧ ¬ Starts "node=" ("grid_pos=".toList ++ x) ∧ ¬ Starts "hybrid=" ("grid_pos=".toList ++ x) ∧
    ¬ Starts "id=" ("grid_pos=".toList ++ x) := ⟨starts_key rfl, starts_key rfl, starts_key rfl, starts_key rfl⟩

/-- Where a list of the form members, id, place can be cut in two. -/
theorem split_lines {M : List (List Char)} {x y : List Char} {a b : List (List Char)} {l : List Char} (h : M ++ [x, y] = a ++ l :: b) :
    (l ∈ M ∧ ∀ z ∈ a, z ∈ M) ∨ (a = M ∧ l = x ∧ b = [y]) ∨ (a = M ++ [x] ∧ l = y ∧ b = []) := by
  induction M generalizing a with
  | nil =>
    right
    cases a with
    | nil => simp at h; exact Or.inl ⟨rfl, h.1.symm, h.2.symm⟩
    | cons a0 as =>
      simp at h
      cases as with
      | nil => simp at h; exact Or.inr ⟨by simp [h.1], h.2.1.symm, h.2.2⟩
      | cons a1 as' => simp at h
  | cons m M ih =>
    cases a with
    | nil => simp at h; exact Or.inl ⟨by simp [h.1], by simp⟩
    | cons a0 as =>
      simp only [List.cons_append, List.cons.injEq] at h
      obtain ⟨rfl, h⟩ := h
      rcases ih h with ⟨h1, h2⟩ | ⟨h1, h2, h3⟩ | ⟨h1, h2, h3⟩
      · refine Or.inl ⟨List.mem_cons_of_mem _ h1, ?_⟩
        intro z hz
        rcases List.mem_cons.mp hz with rfl | hz
        · exact List.mem_cons_self
        · exact List.mem_cons_of_mem _ (h2 z hz)
      · exact Or.inr (Or.inl ⟨by rw [h1], h2, h3⟩)
      · exact Or.inr (Or.inr ⟨by rw [h1]; rfl, h2, h3⟩)

variable {reg : Reg}

/-- A node's section, as far as it was written, is as `FileOk` wants it. -/
theorem sec_ok {st : Ed} (h : Inv reg st) (grid : Grid) {n : Nat × Nat} (hn : n ∈ st.nodes) {lines : List (List Char)}
    (hl : List.Forall₂ (fun l' l => l' <+: l) lines ((sec st grid n).lines.take lines.length)) :
    (∀ pre line post, lines = pre ++ line :: post → Starts "id=" line → ∀ l ∈ post, ¬ Starts "variable=" l ∧ ¬ Starts "node=" l ∧ ¬ Starts "hybrid=" l ∧ ¬ Starts "id=" l) ∧
    ∀ line ∈ lines, ∀ v, scan1D "id=".toList line = some v → 1 ≤ v.toNat ∧ v.toNat * 256 + 255 < 2 ^ 31 := by
  have hp : n.1 ∈ ptrs st := List.mem_map.mpr ⟨_, hn, rfl⟩
  obtain ⟨nd, _, _, hnd, _⟩ := h.good.live n.1 hp
  have hid := h.idr n.2 (List.mem_map.mpr ⟨_, hn, rfl⟩)
  rw [sec_lines st grid hnd] at hl
  constructor
  · intro pre line post he hs l hlp
    subst he
    obtain ⟨rest, hrest⟩ : ∃ rest, memberLines st nd ++ ["id=".toList ++ printD (UInt32.ofNat n.2), "grid_pos=".toList ++ printF (grid n.2).1 ++ ':' :: printF (grid n.2).2] =
        List.take (pre ++ line :: post).length (memberLines st nd ++ ["id=".toList ++ printD (UInt32.ofNat n.2), "grid_pos=".toList ++ printF (grid n.2).1 ++ ':' :: printF (grid n.2).2]) ++ rest :=
      ⟨_, (List.take_append_drop _ _).symm⟩
    rw [List.forall₂_iff_get] at hl
    obtain ⟨hlen, hget⟩ := hl
    generalize hT : List.take (pre ++ line :: post).length (memberLines st nd ++ ["id=".toList ++ printD (UInt32.ofNat n.2), "grid_pos=".toList ++ printF (grid n.2).1 ++ ':' :: printF (grid n.2).2]) = T at *
    have hg : ∀ (i : Nat) (x : List Char), (pre ++ line :: post)[i]? = some x → ∃ y, T[i]? = some y ∧ x <+: y := by
      intro i x hx
      obtain ⟨hi, e⟩ := List.getElem?_eq_some_iff.mp hx
      refine ⟨T[i]'(by omega), List.getElem?_eq_getElem _, ?_⟩
      have := hget i hi (by omega)
      simpa [e] using this
    obtain ⟨y, hy, hxy⟩ := hg pre.length line (by simp)
    have hy2 := List.getElem?_eq_some_iff.mp hy
    obtain ⟨hyl, hye⟩ := hy2
    have hTsplit : T = T.take pre.length ++ y :: T.drop (pre.length + 1) := by
      rw [← hye, List.getElem_cons_drop, List.take_append_drop]
    have hys : Starts "id=" y := List.IsPrefix.trans hs hxy
    have hrest2 := hrest.trans (congrArg (· ++ rest) hTsplit)
    rw [List.append_assoc (T.take pre.length), List.cons_append] at hrest2
    rcases split_lines hrest2 with ⟨h1, _⟩ | ⟨_, _, h3⟩ | ⟨_, h2, _⟩
    · exact absurd hys (member_not_id h1)
    · obtain ⟨j, hj, hje⟩ := List.getElem_of_mem hlp
      obtain ⟨z, hz, hlz⟩ := hg (pre.length + 1 + j) l (by
        rw [List.getElem?_append_right (by omega), show pre.length + 1 + j - pre.length = j + 1 by omega, List.getElem?_cons_succ, List.getElem?_eq_getElem hj, hje])
      have hzm : z ∈ T.drop (pre.length + 1) ++ rest := by
        refine List.mem_append_left _ (List.mem_of_getElem? (i := j) ?_)
        rw [List.getElem?_drop]; exact hz
      rw [h3] at hzm
      rw [List.mem_singleton.mp hzm] at hlz
      have hd := place_dead (printF (grid n.2).1 ++ ':' :: printF (grid n.2).2)
      rw [← List.append_assoc] at hd
      exact ⟨fun hc => hd.1 (hc.trans hlz), fun hc => hd.2.1 (hc.trans hlz), fun hc => hd.2.2.1 (hc.trans hlz), fun hc => hd.2.2.2 (hc.trans hlz)⟩
    · rw [h2] at hys
      have hd := place_dead (printF (grid n.2).1 ++ ':' :: printF (grid n.2).2)
      rw [← List.append_assoc] at hd
      exact absurd hys hd.2.2.2
  · intro line hline v hv
    obtain ⟨i, hi, e⟩ := List.getElem_of_mem hline
    rw [List.forall₂_iff_get] at hl
    obtain ⟨hlen, hget⟩ := hl
    have hpre := hget i hi (by omega)
    simp only [List.get_eq_getElem, e] at hpre
    obtain ⟨y, hy, hly⟩ : ∃ y ∈ memberLines st nd ++ ["id=".toList ++ printD (UInt32.ofNat n.2), "grid_pos=".toList ++ printF (grid n.2).1 ++ ':' :: printF (grid n.2).2], line <+: y :=
      ⟨_, List.mem_of_mem_take (List.getElem_mem _), hpre⟩
    have hs : Starts "id=" y := List.IsPrefix.trans (scan1D_starts hv) hly
    rcases List.mem_append.mp hy with hm | hm
    · exact absurd hs (member_not_id hm)
    · simp only [List.mem_cons, List.not_mem_nil, or_false] at hm
      rcases hm with rfl | rfl
      · obtain ⟨v1, v2⟩ := cut_id hid hly hv
        rw [maxId_eq] at v2
        exact ⟨v1, by omega⟩
      · have hd := place_dead (printF (grid n.2).1 ++ ':' :: printF (grid n.2).2)
        rw [← List.append_assoc] at hd
        exact absurd hs hd.2.2.2

theorem forall₂_prefix_self {lines ls : List (List Char)} (h : lines <+: ls) : List.Forall₂ (fun l' l => l' <+: l) lines (ls.take lines.length) := by
  rw [← List.prefix_iff_eq_take.mp h]
  exact List.forall₂_same.mpr fun _ _ => List.prefix_rfl

theorem forall₂_prefix_cut {a : List (List Char)} {l l' : List Char} {b : List (List Char)} (h : l' <+: l) :
    List.Forall₂ (fun l' l => l' <+: l) (a ++ [l']) ((a ++ l :: b).take (a ++ [l']).length) := by
  have : (a ++ l :: b).take (a ++ [l']).length = a ++ [l] := by
    rw [List.length_append, List.length_singleton, List.take_append]
    simp
  rw [this]
  exact List.rel_append (List.forall₂_same.mpr fun _ _ => List.prefix_rfl) (List.Forall₂.cons h .nil)

/-- What a saved file consists of. -/
theorem saved_sections {st : Ed} {grid : Grid} {pr : Prefs} {qs : List (Nat × Nat)} (hq : Chain st qs) {s : Section}
    (hs : s ∈ qs.reverse.map (sec st grid) ++ [writePrefs st.nodes pr]) (ht : s.type = nodeType) : ∃ n ∈ qs, n ∈ st.nodes ∧ s = sec st grid n := by
  rcases List.mem_append.mp hs with h | h
  · obtain ⟨n, hn, rfl⟩ := List.mem_map.mp h
    have := List.mem_reverse.mp hn
    exact ⟨n, this, hq.sub n this, rfl⟩
  · rw [List.mem_singleton.mp h] at ht
    exact absurd ht (show graphType ≠ nodeType by decide)

/-- A saved file, whole or cut off, is as `FileOk` wants it. -/
theorem cut_ok {st : Ed} (h : Inv reg st) {grid : Grid} {pr : Prefs} {qs : List (Nat × Nat)} (hq : Chain st qs) {file' : List Section}
    (hc : Cut (qs.reverse.map (sec st grid) ++ [writePrefs st.nodes pr]) file') : FileOk file' := by
  have hfull : ∀ s ∈ qs.reverse.map (sec st grid) ++ [writePrefs st.nodes pr], FileOk [s] := by
    intro s hs s' hs' ht
    rw [List.mem_singleton.mp hs'] at ht ⊢
    obtain ⟨n, _, hn, rfl⟩ := saved_sections hq hs ht
    exact sec_ok h grid hn (forall₂_prefix_self List.prefix_rfl)
  rcases hc with hp | ⟨pre, s, post, a, l, b, l', e, hl, hll, hf⟩
  · intro s hs ht
    exact hfull s (hp.subset hs) s (List.mem_singleton.mpr rfl) ht
  · have key : ∀ lines, List.Forall₂ (fun l' l => l' <+: l) lines (s.lines.take lines.length) → FileOk (pre ++ [{ s with lines := lines }]) := by
      intro lines hlines x hx ht
      rcases List.mem_append.mp hx with hx | hx
      · exact hfull x (by rw [e]; exact List.mem_append_left _ hx) x (List.mem_singleton.mpr rfl) ht
      · rw [List.mem_singleton.mp hx] at ht ⊢
        obtain ⟨n, _, hn, rfl⟩ := saved_sections hq (s := s) (by rw [e]; simp) ht
        exact sec_ok h grid hn hlines
    rcases hf with rfl | rfl
    · refine key a (forall₂_prefix_self ?_)
      rw [hl]; exact List.prefix_append _ _
    · refine key (a ++ [l']) ?_
      rw [hl]; exact forall₂_prefix_cut hll

end FastNoise.Editor
