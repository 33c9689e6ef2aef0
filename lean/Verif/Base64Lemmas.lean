import Verif.Base64

/-! Helper lemmas about the Base64 model (no property theorems here). -/
namespace FastNoise.Base64

/-- Abstract meaning of the `@`-compressed text: the plain base64 characters. -/
def expand : List UInt8 → Option (List UInt8)
  | [] => some []
  | [c] => if c = chAt then none else some [c]
  | c :: x :: rest =>
    if c = chAt then
      if dec x = 64 then none
      else (expand rest).map (List.replicate (dec x + 3) chA ++ ·)
    else (expand (x :: rest)).map (c :: ·)

theorem expand_cons {c : UInt8} (h : c ≠ chAt) (r : List UInt8) :
    expand (c :: r) = (expand r).map (c :: ·) := by
  cases r <;> simp [expand, h]

theorem expand_at (x : UInt8) (r : List UInt8) (h : dec x ≠ 64) :
    expand (chAt :: x :: r) = (expand r).map (List.replicate (dec x + 3) chA ++ ·) := by
  simp [expand, h]

theorem expand_append {r q : List UInt8} (h : expand r = some q) (t : List UInt8) :
    expand (r ++ t) = (expand t).map (q ++ ·) := by
  induction r using expand.induct generalizing q with
  | case1 => simp [expand] at h; subst h; simp
  | case2 => simp [expand] at h
  | case3 c hc =>
    simp [expand, hc] at h; subst h
    simp [expand_cons hc]
  | case4 x rest hx => simp [expand, hx] at h
  | case5 x rest hx ih =>
    rw [expand_at x rest hx] at h
    cases h1 : expand rest with
    | none => simp [h1] at h
    | some q1 =>
      simp [h1] at h; subst h
      simp only [List.cons_append]
      rw [expand_at x _ hx, ih h1]
      cases expand t <;> simp
  | case6 c x rest hc ih =>
    rw [expand_cons hc] at h
    cases h1 : expand (x :: rest) with
    | none => simp [h1] at h
    | some q1 =>
      simp [h1] at h; subst h
      rw [List.cons_append, expand_cons hc, ih h1]
      cases expand t <;> simp

theorem decTable_length : decTable.length = 256 := by decide +kernel
theorem encTable_length : encTable.length = 64 := by decide +kernel

theorem dec_enc_all : ∀ n : Fin 64, dec (enc n.val) = n.val ∧ enc n.val ≠ chAt ∧ enc n.val ≠ chEq
    ∧ enc n.val ≠ 0 ∧ (enc n.val = chA ↔ n.val = 0) := by decide +kernel

theorem dec_enc {n : Nat} (h : n < 64) : dec (enc n) = n := (dec_enc_all ⟨n, h⟩).1
theorem enc_ne_at {n : Nat} (h : n < 64) : enc n ≠ chAt := (dec_enc_all ⟨n, h⟩).2.1
theorem enc_ne_eq {n : Nat} (h : n < 64) : enc n ≠ chEq := (dec_enc_all ⟨n, h⟩).2.2.1
theorem enc_ne_zero {n : Nat} (h : n < 64) : enc n ≠ 0 := (dec_enc_all ⟨n, h⟩).2.2.2.1
theorem enc_eq_A {n : Nat} (h : n < 64) : enc n = chA ↔ n = 0 := (dec_enc_all ⟨n, h⟩).2.2.2.2

theorem dec_zero : dec 0 = 64 := by decide +kernel
theorem dec_at : dec chAt = 64 := by decide +kernel
theorem dec_A : dec chA = 0 := by decide +kernel
theorem dec_eq : dec chEq = 0 := by decide +kernel

theorem dec_le (c : UInt8) : dec c ≤ 64 := by
  have : ∀ i : Fin 256, (decTable.getD i.val 0).toNat ≤ 64 := by decide +kernel
  exact this ⟨c.toNat, c.toNat_lt⟩

/-! ### Pass 1 -/

theorem rd_pre (pre : List UInt8) (c : UInt8) (t : List UInt8) :
    rd (pre ++ c :: t) pre.length = some c := by
  simp [rd]

theorem rd_end (pre : List UInt8) : rd pre pre.length = some 0 := by simp [rd]

theorem rd_pre' {s pre : List UInt8} {c : UInt8} {t : List UInt8} {i : Nat} (h : s = pre ++ c :: t)
    (hi : i = pre.length) : rd s i = some c := by
  subst h; subst hi; exact rd_pre _ _ _

theorem pass1_spec (t : List UInt8) : ∀ (pre : List UInt8) (fuel dl : Nat),
    (∀ c ∈ t, c ≠ 0) → t.length < fuel →
    pass1 (pre ++ t) fuel pre.length dl =
      (match expand t with
       | none => P1.reject
       | some q => P1.ok (pre ++ t).length (dl + q.length)) := by
  induction t using expand.induct with
  | case1 =>
    intro pre fuel dl _ hf
    obtain ⟨f, rfl⟩ : ∃ f, fuel = f + 1 := ⟨fuel - 1, by simp at hf; omega⟩
    simp [pass1, rd, expand]
  | case2 =>
    intro pre fuel dl hz hf
    obtain ⟨f, rfl⟩ : ∃ f, fuel = f + 1 := ⟨fuel - 1, by simp at hf; omega⟩
    have h2 : rd (pre ++ [chAt]) (pre.length + 1) = some 0 := by
      have := rd_end (pre ++ [chAt]); simpa using this
    simp [pass1, rd_pre, h2, expand, dec_zero, show chAt ≠ (0 : UInt8) by decide]
  | case3 c hc =>
    intro pre fuel dl hz hf
    obtain ⟨f, rfl⟩ : ∃ f, fuel = f + 2 := ⟨fuel - 2, by simp at hf; omega⟩
    have hc0 : c ≠ 0 := hz c (by simp)
    have h2 : rd (pre ++ [c]) (pre.length + 1) = some 0 := by
      have := rd_end (pre ++ [c]); simpa using this
    simp [pass1, rd_pre, h2, expand, hc, hc0]
  | case4 x rest hx =>
    intro pre fuel dl hz hf
    obtain ⟨f, rfl⟩ : ∃ f, fuel = f + 1 := ⟨fuel - 1, by simp at hf; omega⟩
    have h2 : rd (pre ++ chAt :: x :: rest) (pre.length + 1) = some x :=
      rd_pre' (pre := pre ++ [chAt]) (t := rest) (by simp) (by simp)
    simp [pass1, rd_pre, h2, expand, hx, show chAt ≠ (0 : UInt8) by decide]
  | case5 x rest hx ih =>
    intro pre fuel dl hz hf
    obtain ⟨f, rfl⟩ : ∃ f, fuel = f + 2 := ⟨fuel - 2, by simp at hf; omega⟩
    have h2 : rd (pre ++ chAt :: x :: rest) (pre.length + 1) = some x :=
      rd_pre' (pre := pre ++ [chAt]) (t := rest) (by simp) (by simp)
    have hx0 : x ≠ 0 := hz x (by simp)
    have hxa : x ≠ chAt := by intro h; exact hx (by rw [h]; exact dec_at)
    have := ih (pre ++ [chAt, x]) f (dl + (dec x + 2) + 1) (fun c hc => hz c (by simp [hc]))
      (by simp at hf; omega)
    rw [expand_at x rest hx]
    simp only [List.append_assoc, List.cons_append, List.nil_append, List.length_append,
      List.length_cons, List.length_nil, Nat.zero_add] at this
    simp only [pass1, rd_pre, h2, hx, hx0, hxa]
    simp only [show chAt ≠ (0 : UInt8) by decide, if_false, if_true, Nat.add_assoc] at this ⊢
    rw [this]
    cases expand rest <;> simp; omega
  | case6 c x rest hc ih =>
    intro pre fuel dl hz hf
    obtain ⟨f, rfl⟩ : ∃ f, fuel = f + 1 := ⟨fuel - 1, by simp at hf; omega⟩
    have hc0 : c ≠ 0 := hz c (by simp)
    have := ih (pre ++ [c]) f (dl + 1) (fun c hc => hz c (List.mem_cons_of_mem _ hc))
      (by simp at hf ⊢; omega)
    rw [expand_cons hc]
    simp only [List.append_assoc, List.cons_append, List.nil_append, List.length_append,
      List.length_cons, List.length_nil, Nat.zero_add] at this
    simp only [pass1, rd_pre, hc, hc0, if_false]
    rw [this]
    cases expand (x :: rest) <;> simp; omega

/-! ### Pass 2 -/

/-- Blockwise decoding of plain base64 characters. -/
def plainBytes : List UInt8 → List UInt8
  | a :: b :: c :: d :: rest => blockBytes (triple a b c d) 3 ++ plainBytes rest
  | _ => []

theorem blockBytes_length (t room : Nat) : (blockBytes t room).length = min room 3 := by
  simp [blockBytes]

theorem blockBytes_take (t room : Nat) : blockBytes t room = (blockBytes t 3).take room := by
  simp [blockBytes]

/-- The remaining plain characters at position `i` with `n` pending `A`s. -/
structure At (s : List UInt8) (i n : Nat) (R : List UInt8) : Prop where
  ex : ∃ pre t q, s = pre ++ t ∧ i = pre.length ∧ expand t = some q ∧
    R = List.replicate n chA ++ q

theorem At.empty {s i n R} (h : At s i n R) : (i < s.length ∨ n > 0) ↔ R ≠ [] := by
  obtain ⟨pre, t, q, hs, hi, hq, hR⟩ := h
  subst hs hi hR
  cases t with
  | nil => simp [expand] at hq; subst hq; simp; omega
  | cons c t =>
    have : q ≠ [] := by
      intro h; subst h
      cases t with
      | nil => simp [expand] at hq
      | cons x t =>
        simp only [expand] at hq
        split at hq
        · split at hq
          · simp at hq
          · cases h1 : expand t <;> simp [h1, List.replicate_succ] at hq
        · cases h1 : expand (x :: t) <;> simp [h1] at hq
    simp [this]

theorem At.next {s i n c R} (h : At s i n (c :: R)) :
    ∃ i' n', nextChar s i n = some (c, i', n') ∧ At s i' n' R := by
  obtain ⟨pre, t, q, hs, hi, hq, hR⟩ := h
  subst hs hi
  by_cases hn : n > 0
  · obtain ⟨m, rfl⟩ : ∃ m, n = m + 1 := ⟨n - 1, by omega⟩
    simp [List.replicate_succ] at hR
    refine ⟨pre.length, m, ?_, ⟨pre, t, q, rfl, rfl, hq, hR.2⟩⟩
    simp [nextChar, hR.1]
  · have : n = 0 := by omega
    subst this
    simp at hR; subst hR
    cases t with
    | nil => simp [expand] at hq
    | cons d t =>
      by_cases hd : d = chAt
      · subst hd
        cases t with
        | nil => simp [expand] at hq
        | cons x t =>
          by_cases hx : dec x = 64
          · simp [expand, hx] at hq
          · rw [expand_at x t hx] at hq
            cases h1 : expand t with
            | none => simp [h1] at hq
            | some q1 =>
              simp [h1, List.replicate_succ] at hq
              have h2 : rd (pre ++ chAt :: x :: t) (pre.length + 1) = some x :=
                rd_pre' (pre := pre ++ [chAt]) (t := t) (by simp) (by simp)
              refine ⟨pre.length + 2, dec x + 2, ?_, ⟨pre ++ [chAt, x], t, q1, by simp, by simp, h1, ?_⟩⟩
              · simp [nextChar, rd_pre, h2, hq.1]
              · simp [← hq.2, List.replicate_succ]
      · rw [expand_cons hd] at hq
        cases h1 : expand t with
        | none => simp [h1] at hq
        | some q1 =>
          simp [h1] at hq
          refine ⟨pre.length + 1, 0, ?_, ⟨pre ++ [d], t, q1, by simp, by simp, h1, ?_⟩⟩
          · have hd' : c ≠ chAt := hq.1 ▸ hd
            simp [nextChar, rd_pre, hd', hq.1]
          · simp [hq.2]

theorem pass2_spec (s : List UInt8) (outLen : Nat) : ∀ (m : Nat) (R : List UInt8) (fuel i n : Nat)
    (out : List UInt8), R.length = 4 * m → m < fuel → At s i n R →
    pass2 s s.length outLen fuel i n out
      = some (out ++ (plainBytes R).take (outLen - out.length)) := by
  intro m
  induction m with
  | zero =>
    intro R fuel i n out hR hf hA
    obtain ⟨f, rfl⟩ : ∃ f, fuel = f + 1 := ⟨fuel - 1, by omega⟩
    have : R = [] := List.length_eq_zero_iff.mp (by omega)
    subst this
    have := hA.empty
    simp at this
    simp [pass2, plainBytes]
    omega
  | succ m ih =>
    intro R fuel i n out hR hf hA
    obtain ⟨f, rfl⟩ : ∃ f, fuel = f + 1 := ⟨fuel - 1, by omega⟩
    match R, hR with
    | a :: b :: c :: d :: R, hR =>
      have hne := hA.empty.mpr (by simp)
      obtain ⟨i1, n1, e1, A1⟩ := hA.next
      obtain ⟨i2, n2, e2, A2⟩ := A1.next
      obtain ⟨i3, n3, e3, A3⟩ := A2.next
      obtain ⟨i4, n4, e4, A4⟩ := A3.next
      have := ih R f i4 n4 (out ++ blockBytes (triple a b c d) (outLen - out.length))
        (by simp at hR; omega) (by omega) A4
      simp only [pass2, hne, if_true, e1, e2, e3, e4, Option.bind_eq_bind, Option.bind_some, this]
      congr 1
      rw [List.append_assoc]
      congr 1
      rw [plainBytes, List.take_append, ← blockBytes_take]
      congr 2
      simp only [List.length_append, blockBytes_length]
      omega
    | [], hR => simp at hR
    | [_], hR => simp at hR; omega
    | [_, _], hR => simp at hR; omega
    | [_, _, _], hR => simp at hR; omega

theorem plainBytes_length : ∀ (m : Nat) (R : List UInt8), R.length = 4 * m →
    (plainBytes R).length = 3 * m := by
  intro m
  induction m with
  | zero => intro R h; have : R = [] := List.length_eq_zero_iff.mp (by omega); subst this; simp [plainBytes]
  | succ m ih =>
    intro R hR
    match R, hR with
    | a :: b :: c :: d :: R, hR =>
      simp only [plainBytes, List.length_append, blockBytes_length]
      rw [ih R (by simp at hR; omega)]; omega
    | [], hR => simp at hR
    | [_], hR => simp at hR; omega
    | [_, _], hR => simp at hR; omega
    | [_, _, _], hR => simp at hR; omega

theorem expand_length_le {t q : List UInt8} (h : expand t = some q) : t.length ≤ q.length := by
  induction t using expand.induct generalizing q with
  | case1 => simp
  | case2 => simp [expand] at h
  | case3 c hc => simp [expand, hc] at h; subst h; simp
  | case4 x rest hx => simp [expand, hx] at h
  | case5 x rest hx ih =>
    rw [expand_at x rest hx] at h
    cases h1 : expand rest with
    | none => simp [h1] at h
    | some q1 => simp [h1] at h; subst h; have := ih h1; simp; omega
  | case6 c x rest hc ih =>
    rw [expand_cons hc] at h
    cases h1 : expand (x :: rest) with
    | none => simp [h1] at h
    | some q1 => simp [h1] at h; subst h; have := ih h1; simp at this ⊢; omega

/-- Number of `=` characters the decoder trims (it looks at the raw text only). -/
def pad (s : List UInt8) : Nat :=
  if s[s.length - 1]? = some chEq then (if s[s.length - 2]? = some chEq then 2 else 1) else 0

theorem outLenOf_spec (s : List UInt8) (dl : Nat) (h : 2 ≤ s.length) :
    outLenOf s s.length dl = some (dl / 4 * 3 - pad s) := by
  have h1 : s.length - 1 < s.length := by omega
  have h2 : s.length - 2 < s.length := by omega
  have e1 : rd s (s.length - 1) = some s[s.length - 1] := by simp [rd, h1]
  have e2 : rd s (s.length - 2) = some s[s.length - 2] := by simp [rd, h2]
  simp only [outLenOf, e1, e2, pad, List.getElem?_eq_getElem h1, List.getElem?_eq_getElem h2,
    Option.some.injEq]
  split
  · omega
  · split
    · split <;> simp_all
    · simp_all

theorem pad_le (s : List UInt8) : pad s ≤ 2 := by
  unfold pad; split <;> (try split) <;> omega

/-- `expand` of a one character text has length one, so accepted texts have length at least two. -/
theorem two_le_of_expand {s q : List UInt8} (h : expand s = some q) (hq : 4 ≤ q.length) :
    2 ≤ s.length := by
  match s, h with
  | [], h => simp [expand] at h; subst h; simp at hq
  | [c], h =>
    simp only [expand] at h
    split at h
    · simp at h
    · simp at h; subst h; simp at hq
  | _ :: _ :: _, _ => simp

/-- Complete functional description of the decoder model on every C string. -/
theorem decode_eq (s : List UInt8) (hs : ∀ c ∈ s, c ≠ 0) :
    decode s = .done (match expand s with
      | none => []
      | some q => if q.length / 4 = 0 ∨ q.length % 4 ≠ 0 then []
                  else (plainBytes q).take (q.length / 4 * 3 - pad s)) := by
  have h1 := pass1_spec s [] (s.length + 1) 0 hs (by omega)
  simp only [List.nil_append, List.length_nil, Nat.zero_add] at h1
  unfold decode
  rw [h1]
  cases hq : expand s with
  | none => simp
  | some q =>
    simp only
    by_cases hc : q.length / 4 = 0 ∨ q.length % 4 ≠ 0
    · have hc' : q.length / 4 * 3 = 0 ∨ q.length % 4 ≠ 0 := by omega
      simp only [hc, hc', if_true]
    · have hc' : ¬ (q.length / 4 * 3 = 0 ∨ q.length % 4 ≠ 0) := by omega
      simp only [hc, hc', if_false]
      have hl := two_le_of_expand hq (by omega)
      rw [outLenOf_spec s _ hl]
      simp only
      have h2 := pass2_spec s (q.length / 4 * 3 - pad s) (q.length / 4) q (q.length + 1) 0 0 []
        (by omega) (by omega) ⟨⟨[], s, q, by simp, by simp, hq, by simp⟩⟩
      rw [h2]
      simp only [List.nil_append, List.length_nil, Nat.sub_zero]
      have hlen := plainBytes_length (q.length / 4) q (by omega)
      simp only [List.length_take, hlen]
      congr 1
      rw [show q.length / 4 * 3 - pad s - min (q.length / 4 * 3 - pad s) (3 * (q.length / 4)) = 0 by omega]
      simp

end FastNoise.Base64
