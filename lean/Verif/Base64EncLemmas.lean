import Verif.Base64Lemmas

/-! Helper lemmas about the Base64 encoder (no property theorems here). -/
namespace FastNoise.Base64

/-- The text contains 66 consecutive `A` characters. -/
def Long (p : List UInt8) : Prop := List.replicate 66 chA <:+: p

/-- Structural version of the encoder's character sequence (before compression). -/
def plainChars : List UInt8 → List UInt8
  | a :: b :: c :: rest => block3 a b c ++ plainChars rest
  | [a, b] => [enc ((a >>> 2) &&& 0x3F).toNat,
            enc (((a &&& 0x3) <<< 4) ||| ((b &&& 0xF0) >>> 4)).toNat,
            enc ((b &&& 0xF) <<< 2).toNat, chEq]
  | [a] => [enc ((a >>> 2) &&& 0x3F).toNat, enc ((a &&& 0x3) <<< 4).toNat, chEq, chEq]
  | [] => [0]

theorem getElem?_pre {s pre : List UInt8} {c : UInt8} {t : List UInt8} {i : Nat} (h : s = pre ++ c :: t)
    (hi : i = pre.length) : s[i]? = some c := by
  subst h; subst hi; simp

theorem encLoop_spec (s : List UInt8) (h2 : 2 ≤ s.length) (hmax : s.length < 2 ^ 64) (t : List UInt8) :
    ∀ (pre : List UInt8) (fuel : Nat), s = pre ++ t → t.length < fuel →
    encLoop s fuel pre.length = some (plainChars t) := by
  induction t using plainChars.induct with
  | case1 a b c rest ih =>
    intro pre fuel hs hf
    obtain ⟨f, rfl⟩ : ∃ f, fuel = f + 1 := ⟨fuel - 1, by simp at hf; omega⟩
    have := ih (pre ++ [a, b, c]) f (by simp [hs]) (by simp at hf; omega)
    have hl : s.length = pre.length + (rest.length + 3) := by simp [hs]
    have e1 : s[pre.length]? = some a := getElem?_pre hs rfl
    have e2 : s[pre.length + 1]? = some b :=
      getElem?_pre (pre := pre ++ [a]) (t := c :: rest) (by simp [hs]) (by simp)
    have e3 : s[pre.length + 2]? = some c :=
      getElem?_pre (pre := pre ++ [a, b]) (t := rest) (by simp [hs]) (by simp)
    simp at this
    have hlt : pre.length < (s.length + 2 ^ 64 - 2) % 2 ^ 64 := by omega
    simp only [encLoop, hlt, if_true, e1, e2, e3, this, plainChars]
    rfl
  | case2 a b =>
    intro pre fuel hs hf
    obtain ⟨f, rfl⟩ : ∃ f, fuel = f + 1 := ⟨fuel - 1, by simp at hf; omega⟩
    have hl : s.length = pre.length + 2 := by simp [hs]
    have e1 : s[pre.length]? = some a := getElem?_pre hs rfl
    have e2 : s[pre.length + 1]? = some b :=
      getElem?_pre (pre := pre ++ [a]) (t := []) (by simp [hs]) (by simp)
    have hlt : ¬ pre.length < (s.length + 2 ^ 64 - 2) % 2 ^ 64 := by omega
    have h3 : pre.length < s.length := by omega
    have h4 : ¬ pre.length = s.length - 1 := by omega
    simp only [encLoop, hlt, if_false, tailChars, h3, h4, if_true, e1, e2, plainChars]
    rfl
  | case3 a =>
    intro pre fuel hs hf
    obtain ⟨f, rfl⟩ : ∃ f, fuel = f + 1 := ⟨fuel - 1, by simp at hf; omega⟩
    have hl : s.length = pre.length + 1 := by simp [hs]
    have e1 : s[pre.length]? = some a := getElem?_pre hs rfl
    have hlt : ¬ pre.length < (s.length + 2 ^ 64 - 2) % 2 ^ 64 := by omega
    have h3 : pre.length < s.length := by omega
    have h4 : pre.length = s.length - 1 := by omega
    simp only [encLoop, hlt, if_false, tailChars, h3, if_true, ← h4, e1, plainChars]
    rfl
  | case4 =>
    intro pre fuel hs hf
    obtain ⟨f, rfl⟩ : ∃ f, fuel = f + 1 := ⟨fuel - 1, by simp at hf; omega⟩
    have hl : s.length = pre.length := by simp [hs]
    have hlt : ¬ pre.length < (s.length + 2 ^ 64 - 2) % 2 ^ 64 := by omega
    have h3 : ¬ pre.length < s.length := by omega
    simp only [encLoop, hlt, if_false, tailChars, h3, plainChars]
    rfl

theorem encodeChars_spec (s : List UInt8) (h2 : 2 ≤ s.length) (hmax : s.length < 2 ^ 64) :
    encodeChars s = some (plainChars s) :=
  encLoop_spec s h2 hmax s [] (s.length + 1) (by simp) (by omega)

/-! ### Compression -/

theorem long_concat (p : List UInt8) (c : UInt8) :
    Long (p ++ [c]) ↔ List.replicate 66 chA <:+ p ++ [c] ∨ Long p := by
  unfold Long; exact List.infix_concat_iff

theorem suffix_run {q : List UInt8} {m : Nat} (hm : m ≤ 65) (hq : q.getLast? ≠ some chA) :
    ¬ List.replicate 66 chA <:+ q ++ List.replicate m chA := by
  intro h
  rw [← List.reverse_prefix] at h
  simp only [List.reverse_append, List.reverse_replicate] at h
  rw [show 66 = m + (66 - m) by omega, ← List.replicate_append_replicate,
    List.prefix_append_right_inj] at h
  obtain ⟨k, hk⟩ : ∃ k, 66 - m = k + 1 := ⟨66 - m - 1, by omega⟩
  rw [hk, List.replicate_succ] at h
  obtain ⟨t, ht⟩ := h
  apply hq
  rw [← List.head?_reverse, ← ht]
  simp

theorem rewriteTail_eq (r : List UInt8) (n k : Nat) :
    rewriteTail (r ++ List.replicate 2 chA) (n + 3 + k * 0) = r ++ [chAt, enc n] := by
  simp [rewriteTail, List.replicate_succ]

theorem rewriteTail_eq' (r : List UInt8) {n : Nat} (h : 3 ≤ n) :
    rewriteTail (r ++ List.replicate 2 chA) n = r ++ [chAt, enc (n - 3)] := by
  obtain ⟨k, rfl⟩ : ∃ k, n = k + 3 := ⟨n - 3, by omega⟩
  have := rewriteTail_eq r k 0
  simpa using this

/-- Characters that base64 bodies consist of. -/
def EncCh (c : UInt8) : Prop := ∃ n, n < 64 ∧ c = enc n

theorem EncCh.ne_zero {c} (h : EncCh c) : c ≠ 0 := by obtain ⟨n, hn, rfl⟩ := h; exact enc_ne_zero hn
theorem EncCh.ne_at {c} (h : EncCh c) : c ≠ chAt := by obtain ⟨n, hn, rfl⟩ := h; exact enc_ne_at hn
theorem EncCh.ne_eq {c} (h : EncCh c) : c ≠ chEq := by obtain ⟨n, hn, rfl⟩ := h; exact enc_ne_eq hn
theorem encCh_A : EncCh chA := ⟨0, by omega, by decide +kernel⟩

/-- Characters that compressed bodies consist of. -/
def TextCh (c : UInt8) : Prop := EncCh c ∨ c = chAt

theorem TextCh.ne_zero {c} (h : TextCh c) : c ≠ 0 := by
  rcases h with h | h
  · exact h.ne_zero
  · subst h; decide
theorem TextCh.ne_eq {c} (h : TextCh c) : c ≠ chEq := by
  rcases h with h | h
  · exact h.ne_eq
  · subst h; decide

/-- Invariant of the compressor after consuming the plain characters `p`. -/
structure CInv (p : List UInt8) (st : EncSt) : Prop where
  ex : ∃ r q, st.ret = r ++ List.replicate (min st.n 2) chA ∧ expand r = some q ∧
    (∀ c ∈ r, TextCh c) ∧ st.n ≤ 65 ∧
    (¬ Long p → p = q ++ List.replicate st.n chA ∧ q.getLast? ≠ some chA) ∧
    (Long p → p.length < q.length + st.n) ∧ p.length ≤ q.length + st.n

theorem CInv.init : CInv [] { ret := [], n := 0 } := by
  refine ⟨[], [], by simp, by simp [expand], by simp, by simp, by simp, ?_, by simp⟩
  intro h
  have := h.length_le
  simp at this

/-- The text after the pending run is closed. -/
def flush (st : EncSt) : List UInt8 := if st.n ≥ 3 then rewriteTail st.ret st.n else st.ret

theorem expand_replicate (m : Nat) : expand (List.replicate m chA) = some (List.replicate m chA) := by
  induction m with
  | zero => simp [expand]
  | succ m ih => rw [List.replicate_succ, expand_cons (by decide), ih]; simp

theorem expand_enc {l : List UInt8} (h : ∀ c ∈ l, c ≠ chAt) : expand l = some l := by
  induction l with
  | nil => simp [expand]
  | cons c l ih =>
    rw [expand_cons (h c (by simp)), ih (fun c hc => h c (by simp [hc]))]; simp

theorem flush_spec {r q : List UInt8} {st : EncSt}
    (h1 : st.ret = r ++ List.replicate (min st.n 2) chA) (h2 : expand r = some q)
    (h3 : ∀ c ∈ r, TextCh c) (h4 : st.n ≤ 65) :
    expand (flush st) = some (q ++ List.replicate st.n chA) ∧ (∀ c ∈ flush st, TextCh c) := by
  unfold flush
  split
  · rename_i h
    rw [show min st.n 2 = 2 by omega] at h1
    rw [h1, rewriteTail_eq' r h]
    have hd : dec (enc (st.n - 3)) = st.n - 3 := dec_enc (by omega)
    constructor
    · rw [expand_append h2, expand_at _ _ (by omega), hd]
      simp [expand, show st.n - 3 + 3 = st.n by omega]
    · intro c hc
      simp at hc
      rcases hc with hc | hc | hc
      · exact h3 c hc
      · exact Or.inr hc
      · exact Or.inl ⟨st.n - 3, by omega, hc⟩
  · rw [show min st.n 2 = st.n by omega] at h1
    rw [h1, expand_append h2, expand_replicate]
    refine ⟨by simp, ?_⟩
    intro c hc
    simp at hc
    rcases hc with hc | hc
    · exact h3 c hc
    · exact Or.inl (hc.2 ▸ encCh_A)

theorem CInv.step {p : List UInt8} {st : EncSt} (h : CInv p st) {c : UInt8} (hc : EncCh c) :
    CInv (p ++ [c]) (appendChar st c) := by
  obtain ⟨r, q, h1, h2, h3, h4, h5, h6, h7⟩ := h
  by_cases hA : c = chA
  · subst hA
    simp only [appendChar, if_true, encTable_length]
    split
    · rename_i hn
      refine ⟨r, q, ?_, h2, h3, by simp; omega, ?_, ?_, by simp; omega⟩
      · simp only
        rw [h1, show min (st.n + 1) 2 = min st.n 2 + 1 by omega, List.replicate_succ']
        simp
      · intro hl
        have hlp : ¬ Long p := fun hh => hl ((long_concat p chA).mpr (Or.inr hh))
        obtain ⟨a, b⟩ := h5 hlp
        refine ⟨?_, b⟩
        simp only
        rw [List.replicate_succ', ← List.append_assoc, ← a]
      · intro hl
        by_cases hlp : Long p
        · have := h6 hlp; simp; omega
        · exfalso
          obtain ⟨a, b⟩ := h5 hlp
          rcases (long_concat p chA).mp hl with hh | hh
          · rw [a, List.append_assoc, ← List.replicate_succ'] at hh
            exact suffix_run (by omega) b hh
          · exact hlp hh
    · rename_i hn
      split
      · rename_i hn2
        have hn65 : st.n = 65 := by omega
        have hf := flush_spec (r := r) (q := q) (st := { ret := st.ret, n := 66 - 1 })
          (by rw [h1, hn65]) h2 h3 (by simp)
        rw [hn65] at h1
        have hmin : min 65 2 = 2 := rfl
        rw [hmin] at h1
        have hd : dec (enc 63) = 63 := dec_enc (by omega)
        refine ⟨r ++ [chAt, enc 63], q ++ List.replicate 66 chA, ?_, ?_, ?_, by simp, ?_, ?_, ?_⟩
        · simp only [hn65]
          rw [h1, rewriteTail_eq' r (by omega)]
          simp
        · rw [expand_append h2, expand_at _ _ (by omega), hd]
          simp [expand]
        · intro c hc
          simp at hc
          rcases hc with hc | hc | hc
          · exact h3 c hc
          · exact Or.inr hc
          · exact Or.inl ⟨63, by omega, hc⟩
        · intro hl
          exfalso
          have hlp : ¬ Long p := fun hh => hl ((long_concat p chA).mpr (Or.inr hh))
          obtain ⟨a, b⟩ := h5 hlp
          apply hl
          rw [a, List.append_assoc, ← List.replicate_succ', hn65]
          exact (List.suffix_append q _).isInfix
        · intro _
          simp; omega
        · simp; omega
      · rename_i hn2
        refine ⟨r, q, ?_, h2, h3, by simp; omega, ?_, ?_, by simp; omega⟩
        · simp only
          rw [h1, show min (st.n + 1) 2 = min st.n 2 by omega]
        · intro hl
          have hlp : ¬ Long p := fun hh => hl ((long_concat p chA).mpr (Or.inr hh))
          obtain ⟨a, b⟩ := h5 hlp
          refine ⟨?_, b⟩
          simp only
          rw [List.replicate_succ', ← List.append_assoc, ← a]
        · intro hl
          by_cases hlp : Long p
          · have := h6 hlp; simp; omega
          · exfalso
            obtain ⟨a, b⟩ := h5 hlp
            rcases (long_concat p chA).mp hl with hh | hh
            · rw [a, List.append_assoc, ← List.replicate_succ'] at hh
              exact suffix_run (by omega) b hh
            · exact hlp hh
  · obtain ⟨f1, f2⟩ := flush_spec h1 h2 h3 h4
    have hlong : Long (p ++ [c]) ↔ Long p := by
      rw [long_concat]
      constructor
      · rintro (⟨t, ht⟩ | hh)
        · exfalso
          have := congrArg List.getLast? ht
          simp [List.getLast?_append] at this
          exact hA this.symm
        · exact hh
      · exact Or.inr
    have happ : appendChar st c = { ret := flush st ++ [c], n := 0 } := by
      simp [appendChar, hA, hc.ne_zero, flush]
    rw [happ]
    refine ⟨flush st ++ [c], q ++ List.replicate st.n chA ++ [c], by simp, ?_, ?_, by simp, ?_, ?_, ?_⟩
    · rw [expand_append f1, expand_cons hc.ne_at]; simp [expand]
    · intro d hd
      simp at hd
      rcases hd with hd | hd
      · exact f2 d hd
      · subst hd; exact Or.inl hc
    · intro hl
      obtain ⟨a, b⟩ := h5 (fun hh => hl (hlong.mpr hh))
      refine ⟨by simp [← a], ?_⟩
      simp; exact hA
    · intro hl
      have := h6 (hlong.mp hl); simp; omega
    · simp; omega

theorem CInv.fold {p : List UInt8} {st : EncSt} (h : CInv p st) (cs : List UInt8)
    (hcs : ∀ c ∈ cs, EncCh c) : CInv (p ++ cs) (cs.foldl appendChar st) := by
  induction cs generalizing p st with
  | nil => simpa
  | cons c cs ih =>
    have := ih (h.step (hcs c (by simp))) (fun d hd => hcs d (by simp [hd]))
    simpa using this

/-- Compressing a body: text of the closed state. -/
theorem compress_spec (cs : List UInt8) (hcs : ∀ c ∈ cs, EncCh c) :
    ∃ e, expand (flush (cs.foldl appendChar ⟨[], 0⟩)) = some e ∧
      (∀ c ∈ flush (cs.foldl appendChar ⟨[], 0⟩), TextCh c) ∧
      (¬ Long cs → e = cs) ∧ (Long cs → cs.length < e.length) := by
  obtain ⟨r, q, h1, h2, h3, h4, h5, h6, h7⟩ := CInv.init.fold cs hcs
  obtain ⟨f1, f2⟩ := flush_spec h1 h2 h3 h4
  refine ⟨_, f1, f2, ?_, ?_⟩
  · intro h
    have := (h5 (by simpa using h)).1
    simpa using this.symm
  · intro h
    have := h6 (by simpa using h)
    simpa using this

theorem appendChar_eq (st : EncSt) : appendChar st chEq = { ret := flush st ++ [chEq], n := 0 } := by
  simp [appendChar, flush, show chEq ≠ chA by decide, show chEq ≠ (0 : UInt8) by decide]

theorem appendChar_zero (st : EncSt) : appendChar st 0 = { ret := flush st, n := 0 } := by
  simp [appendChar, flush, show (0 : UInt8) ≠ chA by decide]

/-! ### Bit arithmetic of one block -/

theorem sext1 (a : UInt8) : ((a >>> 2) &&& 0x3F).toNat = a.toNat / 4 := by
  have : ∀ i : Fin 256, ((UInt8.ofFin i >>> 2) &&& 0x3F).toNat = i.val / 4 := by decide +kernel
  simpa using this a.toFin
theorem sext2 (a b : UInt8) :
    (((a &&& 0x3) <<< 4) ||| ((b &&& 0xF0) >>> 4)).toNat = a.toNat % 4 * 16 + b.toNat / 16 := by
  have ha : ∀ i : Fin 256, (UInt8.ofFin i &&& 0x3) = UInt8.ofNat (i.val % 4) := by decide +kernel
  have hb : ∀ i : Fin 256, ((UInt8.ofFin i &&& 0xF0) >>> 4) = UInt8.ofNat (i.val / 16) := by decide +kernel
  have ha' := ha a.toFin
  have hb' := hb b.toFin
  simp at ha' hb'
  have hc : ∀ (i : Fin 4) (j : Fin 16),
    (((UInt8.ofNat i.val) <<< 4) ||| UInt8.ofNat j.val).toNat = i.val * 16 + j.val := by decide +kernel
  have := hc ⟨a.toNat % 4, by omega⟩ ⟨b.toNat / 16, by have := b.toNat_lt; omega⟩
  rw [← this, ha', hb']
theorem sext3 (b c : UInt8) :
    (((b &&& 0xF) <<< 2) ||| ((c &&& 0xC0) >>> 6)).toNat = b.toNat % 16 * 4 + c.toNat / 64 := by
  have ha : ∀ i : Fin 256, (UInt8.ofFin i &&& 0xF) = UInt8.ofNat (i.val % 16) := by decide +kernel
  have hb : ∀ i : Fin 256, ((UInt8.ofFin i &&& 0xC0) >>> 6) = UInt8.ofNat (i.val / 64) := by decide +kernel
  have ha' := ha b.toFin
  have hb' := hb c.toFin
  simp at ha' hb'
  have hc : ∀ (i : Fin 16) (j : Fin 4),
    (((UInt8.ofNat i.val) <<< 2) ||| UInt8.ofNat j.val).toNat = i.val * 4 + j.val := by decide +kernel
  have := hc ⟨b.toNat % 16, by omega⟩ ⟨c.toNat / 64, by have := c.toNat_lt; omega⟩
  rw [← this, ha', hb']
theorem sext4 (c : UInt8) : (c &&& 0x3F).toNat = c.toNat % 64 := by
  have : ∀ i : Fin 256, (UInt8.ofFin i &&& 0x3F).toNat = i.val % 64 := by decide +kernel
  simpa using this c.toFin
theorem sext2' (a : UInt8) : ((a &&& 0x3) <<< 4).toNat = a.toNat % 4 * 16 := by
  have : ∀ i : Fin 256, ((UInt8.ofFin i &&& 0x3) <<< 4).toNat = i.val % 4 * 16 := by decide +kernel
  simpa using this a.toFin
theorem sext3' (b : UInt8) : ((b &&& 0xF) <<< 2).toNat = b.toNat % 16 * 4 := by
  have : ∀ i : Fin 256, ((UInt8.ofFin i &&& 0xF) <<< 2).toNat = i.val % 16 * 4 := by decide +kernel
  simpa using this b.toFin

theorem ofNat_toNat_eq {x : Nat} {a : UInt8} (h : x = a.toNat) : UInt8.ofNat x = a := by
  subst h; simp

theorem block_bytes (a b c : UInt8) :
    ∃ w x y z, block3 a b c = [w, x, y, z] ∧ blockBytes (triple w x y z) 3 = [a, b, c] := by
  refine ⟨_, _, _, _, rfl, ?_⟩
  have ha := a.toNat_lt
  have hb := b.toNat_lt
  have hc := c.toNat_lt
  simp only [triple, sext1]
  simp only [sext2, sext3, sext4]
  rw [dec_enc (by omega), dec_enc (by omega), dec_enc (by omega), dec_enc (by omega)]
  simp only [blockBytes, List.take_succ_cons, List.take_zero, List.cons.injEq, and_true]
  refine ⟨ofNat_toNat_eq (by omega), ofNat_toNat_eq (by omega), ofNat_toNat_eq (by omega)⟩

theorem block2_bytes (a b : UInt8) :
    blockBytes (triple (enc ((a >>> 2) &&& 0x3F).toNat)
      (enc (((a &&& 0x3) <<< 4) ||| ((b &&& 0xF0) >>> 4)).toNat)
      (enc ((b &&& 0xF) <<< 2).toNat) chEq) 3 = [a, b, 0] := by
  have ha := a.toNat_lt
  have hb := b.toNat_lt
  simp only [triple, sext1, sext2, sext3', dec_eq]
  rw [dec_enc (by omega), dec_enc (by omega), dec_enc (by omega)]
  simp only [blockBytes, List.take_succ_cons, List.take_zero, List.cons.injEq, and_true]
  refine ⟨ofNat_toNat_eq (by omega), ofNat_toNat_eq (by omega), ?_⟩
  have : (a.toNat / 4 * 2 ^ 18 + (a.toNat % 4 * 16 + b.toNat / 16) * 2 ^ 12 + b.toNat % 16 * 4 * 2 ^ 6 + 0) % 256 = 0 := by omega
  rw [this]; rfl

theorem block1_bytes (a : UInt8) :
    blockBytes (triple (enc ((a >>> 2) &&& 0x3F).toNat)
      (enc ((a &&& 0x3) <<< 4).toNat) chEq chEq) 3 = [a, 0, 0] := by
  have ha := a.toNat_lt
  simp only [triple, sext1, sext2', dec_eq]
  rw [dec_enc (by omega), dec_enc (by omega)]
  simp only [blockBytes, List.take_succ_cons, List.take_zero, List.cons.injEq, and_true]
  have h1 : (a.toNat / 4 * 2 ^ 18 + a.toNat % 4 * 16 * 2 ^ 12 + 0 * 2 ^ 6 + 0) / 2 ^ 8 % 256 = 0 := by omega
  have h2 : (a.toNat / 4 * 2 ^ 18 + a.toNat % 4 * 16 * 2 ^ 12 + 0 * 2 ^ 6 + 0) % 256 = 0 := by omega
  refine ⟨ofNat_toNat_eq (by omega), ?_, ?_⟩
  · rw [h1]; rfl
  · rw [h2]; rfl

theorem block3_enc (a b c : UInt8) : ∀ d ∈ block3 a b c, EncCh d := by
  have ha := a.toNat_lt
  have hb := b.toNat_lt
  have hc := c.toNat_lt
  intro d hd
  simp only [block3, List.mem_cons, List.not_mem_nil, or_false, sext1] at hd
  simp only [sext2, sext3, sext4] at hd
  rcases hd with h | h | h | h
  · exact ⟨_, by omega, h⟩
  · exact ⟨_, by omega, h⟩
  · exact ⟨_, by omega, h⟩
  · exact ⟨_, by omega, h⟩

/-- Shape of the uncompressed text: a body of base64 characters followed by the padding, with the
block count and the decoded bytes. -/
theorem plain_struct (data : List UInt8) : ∃ body tail m extra,
    plainChars data = body ++ (if tail = [] then [0] else tail) ∧ (∀ c ∈ body, EncCh c) ∧
    (body ++ tail).length = 4 * m ∧ plainBytes (body ++ tail) = data ++ extra ∧
    ((tail = [] ∧ extra.length = 0) ∨ (body ≠ [] ∧ tail = [chEq] ∧ extra.length = 1) ∨
      (body ≠ [] ∧ tail = [chEq, chEq] ∧ extra.length = 2)) := by
  induction data using plainChars.induct with
  | case1 a b c rest ih =>
    obtain ⟨body, tail, m, extra, h1, h2, h3, h4, h5⟩ := ih
    obtain ⟨w, x, y, z, e1, e2⟩ := block_bytes a b c
    refine ⟨block3 a b c ++ body, tail, m + 1, extra, ?_, ?_, ?_, ?_, ?_⟩
    · simp only [plainChars]; rw [h1]; simp
    · intro d hd
      simp at hd
      rcases hd with hd | hd
      · exact block3_enc a b c d hd
      · exact h2 d hd
    · rw [e1]; simp at h3 ⊢; omega
    · rw [e1]; simp [plainBytes, e2, h4]
    · rcases h5 with h | h | h
      · exact Or.inl h
      · exact Or.inr (Or.inl ⟨by simp [e1], h.2⟩)
      · exact Or.inr (Or.inr ⟨by simp [e1], h.2⟩)
  | case2 a b =>
    have ha := a.toNat_lt
    have hb := b.toNat_lt
    refine ⟨[enc ((a >>> 2) &&& 0x3F).toNat,
            enc (((a &&& 0x3) <<< 4) ||| ((b &&& 0xF0) >>> 4)).toNat,
            enc ((b &&& 0xF) <<< 2).toNat], [chEq], 1, [0], by simp [plainChars], ?_, by simp, ?_, by simp⟩
    · intro d hd
      simp only [List.mem_cons, List.not_mem_nil, or_false, sext1, sext2, sext3'] at hd
      rcases hd with h | h | h
      · exact ⟨_, by omega, h⟩
      · exact ⟨_, by omega, h⟩
      · exact ⟨_, by omega, h⟩
    · simp only [List.cons_append, List.nil_append, plainBytes, block2_bytes]
  | case3 a =>
    have ha := a.toNat_lt
    refine ⟨[enc ((a >>> 2) &&& 0x3F).toNat, enc ((a &&& 0x3) <<< 4).toNat], [chEq, chEq], 1, [0, 0],
      by simp [plainChars], ?_, by simp, ?_, by simp⟩
    · intro d hd
      simp only [List.mem_cons, List.not_mem_nil, or_false, sext1, sext2'] at hd
      rcases hd with h | h
      · exact ⟨_, by omega, h⟩
      · exact ⟨_, by omega, h⟩
    · simp only [List.cons_append, List.nil_append, plainBytes, block1_bytes]
  | case4 => exact ⟨[], [], 0, [], by simp [plainChars], by simp, by simp, by simp [plainBytes], by simp⟩

theorem pad_none {s : List UInt8} (h : ∀ c ∈ s, TextCh c) : pad s = 0 := by
  unfold pad
  split
  · rename_i h1
    have := List.mem_of_getElem? h1
    exact absurd rfl (h _ this).ne_eq
  · rfl

theorem pad_one {s : List UInt8} (hs : s ≠ []) (h : ∀ c ∈ s, TextCh c) : pad (s ++ [chEq]) = 1 := by
  unfold pad
  rw [if_pos (by simp), if_neg]
  intro h1
  have hl : 0 < s.length := List.length_pos_iff.mpr hs
  rw [List.getElem?_append_left (by simp; omega)] at h1
  exact absurd rfl (h _ (List.mem_of_getElem? h1)).ne_eq

theorem pad_two (s : List UInt8) : pad (s ++ [chEq, chEq]) = 2 := by
  unfold pad
  rw [if_pos (by simp), if_pos (by simp)]

theorem encode_eq {data body tail : List UInt8} (h2 : 2 ≤ data.length) (hmax : data.length < 2 ^ 64)
    (h1 : plainChars data = body ++ (if tail = [] then [0] else tail))
    (ht : tail = [] ∨ tail = [chEq] ∨ tail = [chEq, chEq]) :
    encode data = some (flush (body.foldl appendChar ⟨[], 0⟩) ++ tail) := by
  unfold encode
  rw [encodeChars_spec data h2 hmax, h1]
  simp only [Option.map_some, List.foldl_append]
  rcases ht with h | h | h <;> subst h <;>
    simp [appendChar_zero, appendChar_eq, flush]

theorem not_at_eq : chEq ≠ chAt := by decide

/-- Long runs in the full character sequence come from the body. -/
theorem long_tail1 (p : List UInt8) {c : UInt8} (hc : c ≠ chA) : Long (p ++ [c]) ↔ Long p := by
  rw [long_concat]
  constructor
  · rintro (⟨t, ht⟩ | hh)
    · exfalso
      have := congrArg List.getLast? ht
      simp [List.getLast?_append] at this
      exact hc this.symm
    · exact hh
  · exact Or.inr

theorem long_tail {body tail : List UInt8}
    (ht : tail = [] ∨ tail = [chEq] ∨ tail = [chEq, chEq]) :
    Long (body ++ (if tail = [] then [0] else tail)) ↔ Long body := by
  rcases ht with h | h | h <;> subst h
  · simpa using long_tail1 body (c := 0) (by decide)
  · simpa using long_tail1 body (c := chEq) (by decide)
  · have h1 := long_tail1 body (c := chEq) (by decide)
    have h2 := long_tail1 (body ++ [chEq]) (c := chEq) (by decide)
    simpa [h1] using h2

/-- Exact behaviour of decode after encode. -/
theorem decode_encode_exact (data : List UInt8) (h2 : 2 ≤ data.length) (hmax : data.length < 2 ^ 64) :
    ∃ text, encode data = some text ∧ (∀ c ∈ text, c ≠ 0) ∧ text ≠ [] ∧
      (¬ Long (plainChars data) → decode text = .done data) ∧
      (Long (plainChars data) → decode text ≠ .done data) := by
  obtain ⟨body, tail, m, extra, p1, p2, p3, p4, p5⟩ := plain_struct data
  have ht : tail = [] ∨ tail = [chEq] ∨ tail = [chEq, chEq] := by
    rcases p5 with h | h | h
    · exact Or.inl h.1
    · exact Or.inr (Or.inl h.2.1)
    · exact Or.inr (Or.inr h.2.1)
  obtain ⟨e, c1, c2, c3, c4⟩ := compress_spec body p2
  have hlenB := plainBytes_length m _ p3
  rw [p4] at hlenB
  simp only [List.length_append] at hlenB p3
  have hbody : body ≠ [] := by
    intro hb
    rcases p5 with h | h | h
    · rw [hb, h.1] at p3; simp at p3; omega
    · exact h.1 hb
    · exact h.1 hb
  have hele : body.length ≤ e.length := by
    by_cases hl : Long body
    · have := c4 hl; omega
    · rw [c3 hl]; omega
  have hfl : flush (body.foldl appendChar ⟨[], 0⟩) ≠ [] := by
    intro h
    rw [h] at c1
    simp [expand] at c1
    subst c1
    have := List.length_pos_iff.mpr hbody
    simp at hele; exact hbody hele
  have hnz : ∀ c ∈ flush (body.foldl appendChar ⟨[], 0⟩) ++ tail, c ≠ 0 := by
    intro c hc
    simp only [List.mem_append] at hc
    rcases hc with hc | hc
    · exact (c2 c hc).ne_zero
    · have : c = chEq := by
        rcases ht with h | h | h <;> subst h <;> simp at hc <;> exact hc
      subst this; decide
  have hpad : pad (flush (body.foldl appendChar ⟨[], 0⟩) ++ tail) = tail.length := by
    rcases ht with h | h | h <;> subst h
    · simpa using pad_none c2
    · simpa using pad_one hfl c2
    · simpa using pad_two _
  have hext : extra.length = tail.length := by
    rcases p5 with h | h | h
    · simp [h.1, h.2]
    · simp [h.2.1, h.2.2]
    · simp [h.2.1, h.2.2]
  have htat : ∀ c ∈ tail, c ≠ chAt := by
    rcases ht with h | h | h <;> subst h <;> simp [not_at_eq]
  have hex : expand (flush (body.foldl appendChar ⟨[], 0⟩) ++ tail) = some (e ++ tail) := by
    rw [expand_append c1, expand_enc htat]; rfl
  refine ⟨_, encode_eq h2 hmax p1 ht, hnz, by simp [hfl], ?_, ?_⟩
  · intro hl
    rw [p1, long_tail ht] at hl
    have he := c3 hl
    subst he
    rw [decode_eq _ hnz, hex]
    have hlen : (e ++ tail).length = 4 * m := by simp; omega
    simp only [hlen, hpad]
    rw [if_neg (by omega), p4]
    rw [show 4 * m / 4 * 3 - tail.length = data.length by omega]
    simp
  · intro hl
    rw [p1, long_tail ht] at hl
    have he := c4 hl
    rw [decode_eq _ hnz, hex]
    simp only [hpad]
    intro h
    simp only [DecRes.done.injEq] at h
    split at h
    · rw [← h] at h2; simp at h2
    · rename_i hc
      have h' := congrArg List.length h
      rw [List.length_take, plainBytes_length ((e ++ tail).length / 4) (e ++ tail) (by omega)] at h'
      simp only [List.length_append] at h' hc
      omega

/-! ### Zero bytes behind a long run -/

theorem char_zero (data : List UInt8) : ∀ (j : Nat) (x : UInt8), data[j]? = some x →
    (plainChars data)[j + j / 3]? = some chA → (plainChars data)[j + j / 3 + 1]? = some chA → x = 0 := by
  have hA : ∀ {n : Nat}, n < 64 → some (enc n) = some chA → n = 0 := by
    intro n hn h; exact (enc_eq_A hn).mp (by simpa using h)
  have hz : ∀ {x : UInt8}, x.toNat = 0 → x = 0 := by
    intro x h; exact UInt8.toNat_inj.mp (by simpa using h)
  induction data using plainChars.induct with
  | case1 a b c rest ih =>
    have ha := a.toNat_lt
    have hb := b.toNat_lt
    have hc := c.toNat_lt
    intro j x hx h1 h2
    match j with
    | 0 =>
      simp only [plainChars, block3, sext1] at h1 h2
      simp only [sext2, sext3, sext4] at h1 h2
      simp at hx h1 h2; subst hx
      have e1 := hA (n := a.toNat / 4) (by omega) (by simpa using h1)
      have e2 := hA (n := a.toNat % 4 * 16 + b.toNat / 16) (by omega) (by simpa using h2)
      exact hz (by omega)
    | 1 =>
      simp only [plainChars, block3, sext1] at h1 h2
      simp only [sext2, sext3, sext4] at h1 h2
      simp at hx h1 h2; subst hx
      have e1 := hA (n := a.toNat % 4 * 16 + b.toNat / 16) (by omega) (by simpa using h1)
      have e2 := hA (n := b.toNat % 16 * 4 + c.toNat / 64) (by omega) (by simpa using h2)
      exact hz (by omega)
    | 2 =>
      simp only [plainChars, block3, sext1] at h1 h2
      simp only [sext2, sext3, sext4] at h1 h2
      simp at hx h1 h2; subst hx
      have e1 := hA (n := b.toNat % 16 * 4 + c.toNat / 64) (by omega) (by simpa using h1)
      have e2 := hA (n := c.toNat % 64) (by omega) (by simpa using h2)
      exact hz (by omega)
    | j + 3 =>
      apply ih j x (by simpa using hx)
      · have : j + 3 + (j + 3) / 3 = (j + j / 3) + 4 := by omega
        rw [this] at h1
        simpa [plainChars, block3] using h1
      · have : j + 3 + (j + 3) / 3 + 1 = (j + j / 3 + 1) + 4 := by omega
        rw [this] at h2
        simpa [plainChars, block3] using h2
  | case2 a b =>
    have ha := a.toNat_lt
    have hb := b.toNat_lt
    intro j x hx h1 h2
    match j with
    | 0 =>
      simp only [plainChars, sext1] at h1 h2
      simp only [sext2, sext3'] at h1 h2
      simp at hx h1 h2; subst hx
      have e1 := hA (n := a.toNat / 4) (by omega) (by simpa using h1)
      have e2 := hA (n := a.toNat % 4 * 16 + b.toNat / 16) (by omega) (by simpa using h2)
      exact hz (by omega)
    | 1 =>
      simp only [plainChars, sext1] at h1 h2
      simp only [sext2, sext3'] at h1 h2
      simp at hx h1 h2; subst hx
      have e1 := hA (n := a.toNat % 4 * 16 + b.toNat / 16) (by omega) (by simpa using h1)
      have e2 := hA (n := b.toNat % 16 * 4) (by omega) (by simpa using h2)
      exact hz (by omega)
    | j + 2 => simp at hx
  | case3 a =>
    have ha := a.toNat_lt
    intro j x hx h1 h2
    match j with
    | 0 =>
      simp only [plainChars, sext1] at h1 h2
      simp only [sext2'] at h1 h2
      simp at hx h1 h2; subst hx
      have e1 := hA (n := a.toNat / 4) (by omega) (by simpa using h1)
      have e2 := hA (n := a.toNat % 4 * 16) (by omega) (by simpa using h2)
      exact hz (by omega)
    | j + 1 => simp at hx
  | case4 => intro j x hx; simp at hx

theorem eq_ne_A : chEq ≠ chA := by decide

theorem plainChars_in (data : List UInt8) :
    ∀ j, (plainChars data)[j + j / 3 + 1]? = some chA → j < data.length := by
  induction data using plainChars.induct with
  | case1 a b c rest ih =>
    intro j h
    by_cases hj : j < 3
    · simp; omega
    · have := ih (j - 3) (by
        rw [show j + j / 3 + 1 = (j - 3 + (j - 3) / 3 + 1) + 4 by omega] at h
        simpa [plainChars, block3] using h)
      simp; omega
  | case2 a b =>
    intro j h
    match j with
    | 0 => simp
    | 1 => simp
    | 2 => simp [plainChars, eq_ne_A] at h
    | j + 3 =>
      rw [show j + 3 + (j + 3) / 3 + 1 = (j + j / 3 + 1) + 4 by omega] at h
      simp [plainChars] at h
  | case3 a =>
    intro j h
    match j with
    | 0 => simp
    | 1 => simp [plainChars, eq_ne_A] at h
    | 2 => simp [plainChars, eq_ne_A] at h
    | j + 3 =>
      rw [show j + 3 + (j + 3) / 3 + 1 = (j + j / 3 + 1) + 4 by omega] at h
      simp [plainChars] at h
  | case4 => intro j h; simp [plainChars] at h

/-- A run of 66 `A`s needs 48 consecutive zero bytes. -/
theorem zeros_of_long {data : List UInt8} (h : Long (plainChars data)) :
    List.replicate 48 (0 : UInt8) <:+: data := by
  obtain ⟨pre, post, hp⟩ := h
  have hk : ∀ i, pre.length ≤ i → i < pre.length + 66 → (plainChars data)[i]? = some chA := by
    intro i h1 h2
    rw [← hp, List.append_assoc, List.getElem?_append_right h1, List.getElem?_append_left (by simp; omega)]
    rw [List.getElem?_replicate]
    simp; omega
  obtain ⟨k, hkdef⟩ : ∃ k, k = pre.length := ⟨_, rfl⟩
  rw [← hkdef] at hk
  -- first byte fully inside the run
  obtain ⟨j0, h1, h2⟩ : ∃ j0, k ≤ j0 + j0 / 3 ∧ (j0 + 47) + (j0 + 47) / 3 + 1 < k + 66 := by
    refine ⟨k / 4 * 3 + (if k % 4 = 3 then 3 else k % 4), ?_, ?_⟩
    · split <;> omega
    · split <;> omega
  have hz : ∀ d, d < 48 → data[j0 + d]? = some 0 := by
    intro d hd
    have hb := plainChars_in data (j0 + d) (hk _ (by omega) (by omega))
    have := char_zero data (j0 + d) data[j0 + d] (List.getElem?_eq_getElem hb)
      (hk _ (by omega) (by omega)) (hk _ (by omega) (by omega))
    rw [List.getElem?_eq_getElem hb, this]
  have hlen : j0 + 48 ≤ data.length := by
    have := (List.getElem?_eq_some_iff.mp (hz 47 (by omega))).1
    omega
  refine ⟨data.take j0, data.drop (j0 + 48), ?_⟩
  apply List.ext_getElem?
  intro i
  by_cases hi : i < j0
  · rw [List.append_assoc, List.getElem?_append_left (by simp; omega), List.getElem?_take]
    simp [hi]
  · by_cases hi2 : i < j0 + 48
    · have := hz (i - j0) (by omega)
      rw [show j0 + (i - j0) = i by omega] at this
      rw [this, List.append_assoc, List.getElem?_append_right (by simp; omega),
        List.getElem?_append_left (by simp; omega), List.getElem?_replicate]
      simp; omega
    · rw [List.getElem?_append_right (by simp; omega)]
      simp only [List.length_append, List.length_take, List.length_replicate, List.getElem?_drop]
      congr 1
      omega

end FastNoise.Base64
