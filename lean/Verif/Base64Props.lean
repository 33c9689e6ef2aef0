import Verif.Base64EncLemmas
import Verif.Base64Spec

/-! Property theorems C01 and C02 (Base64). -/
namespace FastNoise.Base64
open FastNoise.Spec

theorem enc_b64 {n : Nat} (h : n < 64) : enc n = b64Char n := by
  have : ∀ i : Fin 64, enc i.val = b64Char i.val := by decide +kernel
  exact this ⟨n, h⟩

/-- The encoder's characters are the RFC text, plus a NUL flush marker when there is no padding. -/
theorem plainChars_rfc (data : List UInt8) :
    plainChars data = rfc4648 data ++ (if data.length % 3 = 0 then [0] else []) := by
  induction data using plainChars.induct with
  | case1 a b c rest ih =>
    have ha := a.toNat_lt
    have hb := b.toNat_lt
    have hc := c.toNat_lt
    have hm : (a :: b :: c :: rest).length % 3 = rest.length % 3 := by simp; omega
    rw [plainChars, ih, hm, rfc4648]
    simp only [block3, sext1]
    simp only [sext2, sext3, sext4]
    rw [enc_b64 (by omega), enc_b64 (by omega), enc_b64 (by omega), enc_b64 (by omega)]
    simp only [List.cons_append, List.nil_append]
    have e1 : (a.toNat * 65536 + b.toNat * 256 + c.toNat) / 262144 = a.toNat / 4 := by omega
    have e2 : (a.toNat * 65536 + b.toNat * 256 + c.toNat) / 4096 % 64 = a.toNat % 4 * 16 + b.toNat / 16 := by omega
    have e3 : (a.toNat * 65536 + b.toNat * 256 + c.toNat) / 64 % 64 = b.toNat % 16 * 4 + c.toNat / 64 := by omega
    have e4 : (a.toNat * 65536 + b.toNat * 256 + c.toNat) % 64 = c.toNat % 64 := by omega
    rw [e1, e2, e3, e4]
  | case2 a b =>
    have ha := a.toNat_lt
    have hb := b.toNat_lt
    simp only [plainChars, rfc4648, sext1]
    simp only [sext2, sext3']
    rw [enc_b64 (by omega), enc_b64 (by omega), enc_b64 (by omega)]
    simp
    refine ⟨?_, ?_, ?_⟩ <;> congr 1 <;> omega
  | case3 a =>
    have ha := a.toNat_lt
    simp only [plainChars, rfc4648, sext1]
    simp only [sext2']
    rw [enc_b64 (by omega), enc_b64 (by omega)]
    simp
    refine ⟨?_, ?_⟩ <;> congr 1 <;> omega
  | case4 => simp [plainChars, rfc4648]

theorem long_iff (data : List UInt8) : Long (plainChars data) ↔ HasRun 66 65 (rfc4648 data) := by
  have h1 : Long (plainChars data) ↔ Long (rfc4648 data) := by
    rw [plainChars_rfc]
    split
    · exact long_tail1 _ (by decide)
    · simp
  rw [h1]
  constructor
  · rintro ⟨p, q, h⟩; exact ⟨p, q, h.symm⟩
  · rintro ⟨p, q, h⟩; exact ⟨p, q, h.symm⟩

/-- **C01** (exact characterisation).  For every byte vector of length ≥ 2, `Encode` succeeds with a
NUL-free non-empty text, and `Decode` gives the vector back *iff* the standard base64 text of the
vector has no run of 66 `'A'` characters.  The full claim of C01 (always round-trips) is false, see
`C01_roundtrip_fails`; this theorem says exactly where. -/
theorem C01_roundtrip_iff (data : List UInt8) (h2 : 2 ≤ data.length) (hmax : data.length < 2 ^ 64) :
    ∃ text, encode data = some text ∧ text ≠ [] ∧ (∀ c ∈ text, c ≠ 0) ∧
      (decode text = .done data ↔ ¬ HasRun 66 65 (rfc4648 data)) := by
  obtain ⟨t, h, hz, hn, h3, h4⟩ := decode_encode_exact data h2 hmax
  rw [long_iff] at h3 h4
  refine ⟨t, h, hn, hz, ?_, h3⟩
  intro hd hr
  exact h4 hr hd

/-- **C01** (partial: excludes vectors with 48 consecutive zero bytes; the full statement is
`∀ data, 2 ≤ data.length → (encode data).map decode = some (.done data)`, which the code violates). -/
theorem C01_roundtrip_partial (data : List UInt8) (h2 : 2 ≤ data.length) (hmax : data.length < 2 ^ 64)
    (hz : ¬ HasRun 48 0 data) : (encode data).map decode = some (.done data) := by
  obtain ⟨t, h, hz', hn, h3, h4⟩ := decode_encode_exact data h2 hmax
  rw [h, Option.map_some, h3]
  intro hl
  obtain ⟨p, q, e⟩ := zeros_of_long hl
  exact hz ⟨p, q, e.symm⟩

example : 2 ≤ [0, 0, 0, 0, 0, 0, 1].length ∧ [0, 0, 0, 0, 0, 0, 1].length < 2 ^ 64 ∧
    ¬ HasRun 48 (0 : UInt8) [0, 0, 0, 0, 0, 0, 1] := by
  refine ⟨by simp, by simp, ?_⟩
  rintro ⟨p, q, h⟩
  have := congrArg List.length h
  simp at this
  omega

/-- **C01** negation witness: 50 zero bytes do not survive the round trip (the decoder returns an
empty vector), so C01 in full generality is false of the code. -/
theorem C01_roundtrip_fails :
    ∃ data : List UInt8, 2 ≤ data.length ∧ ∃ text, encode data = some text ∧ decode text = .done [] :=
  ⟨List.replicate 50 0, by decide +kernel, (encode (List.replicate 50 0)).getD [], by decide +kernel,
    by decide +kernel⟩

/-- **C01** encoding fewer than two bytes reads outside the vector (`inLen - 2` wraps around). -/
theorem C01_short_input_ub (data : List UInt8) (h : data.length < 2) : encode data = none := by
  match data, h with
  | [], _ => decide +kernel
  | [a], _ => simp [encode, encodeChars, encLoop]
  | _ :: _ :: _, h => simp at h; omega

/-- **C01** texts produced by any standard base64 encoder are accepted and decode to the same bytes. -/
theorem C01_standard_text_accepted (data : List UInt8) (h1 : data ≠ []) :
    decode (rfc4648 data) = .done data := by
  obtain ⟨body, tail, m, extra, p1, p2, p3, p4, p5⟩ := plain_struct data
  have hb0 : ∀ c ∈ body ++ tail, c ≠ 0 := by
    intro c hc
    simp only [List.mem_append] at hc
    rcases hc with hc | hc
    · exact (p2 c hc).ne_zero
    · rcases p5 with h | h | h
      · rw [h.1] at hc; simp at hc
      · rw [h.2.1] at hc; simp at hc; subst hc; decide
      · rw [h.2.1] at hc; simp at hc; subst hc; decide
  have hbat : ∀ c ∈ body ++ tail, c ≠ chAt := by
    intro c hc
    simp only [List.mem_append] at hc
    rcases hc with hc | hc
    · exact (p2 c hc).ne_at
    · rcases p5 with h | h | h
      · rw [h.1] at hc; simp at hc
      · rw [h.2.1] at hc; simp at hc; subst hc; decide
      · rw [h.2.1] at hc; simp at hc; subst hc; decide
  have hlen := plainBytes_length m _ p3
  rw [p4, List.length_append] at hlen
  have htext : ∀ c ∈ body, TextCh c := fun c hc => Or.inl (p2 c hc)
  have hr : rfc4648 data = body ++ tail := by
    rw [plainChars_rfc] at p1
    rcases p5 with h | h | h
    · rw [if_pos (by rw [h.2] at hlen; omega)] at p1
      simpa [h.1] using p1
    · rw [if_neg (by rw [h.2.2] at hlen; omega)] at p1
      simpa [h.2.1] using p1
    · rw [if_neg (by rw [h.2.2] at hlen; omega)] at p1
      simpa [h.2.1] using p1
  have hpad : pad (body ++ tail) = extra.length := by
    rcases p5 with h | h | h
    · rw [h.1, h.2]; simpa using pad_none htext
    · rw [h.2.1, h.2.2]; exact pad_one h.1 htext
    · rw [h.2.1, h.2.2]; exact pad_two _
  have hpos : 0 < data.length := List.length_pos_iff.mpr h1
  rw [hr, decode_eq _ hb0, expand_enc hbat]
  simp only [p3, hpad]
  rw [if_neg (by omega), p4, show 4 * m / 4 * 3 - extra.length = data.length by omega]
  simp

/-- **C02** decoding any NUL-terminated string terminates without reading past the terminator or
before the start (`ub` covers both and a non-terminating loop), and produces at most 99/4 bytes per
input character. -/
theorem C02_decode_safe (s : List UInt8) (hs : ∀ c ∈ s, c ≠ 0) :
    ∃ out, decode s = .done out ∧ 4 * out.length ≤ 99 * s.length := by
  refine ⟨_, decode_eq s hs, ?_⟩
  have key : ∀ (t q : List UInt8), expand t = some q → q.length ≤ 33 * t.length := by
    intro t
    induction t using expand.induct with
    | case1 => intro q h; simp [expand] at h; simp [h]
    | case2 => intro q h; simp [expand] at h
    | case3 c hc => intro q h; simp [expand, hc] at h; simp [← h]
    | case4 x rest hx => intro q h; simp [expand, hx] at h
    | case5 x rest hx ih =>
      intro q h
      rw [expand_at x rest hx] at h
      cases h1 : expand rest with
      | none => simp [h1] at h
      | some q1 =>
        simp [h1] at h; subst h
        have := ih q1 h1
        have := dec_le x
        simp; omega
    | case6 c x rest hc ih =>
      intro q h
      rw [expand_cons hc] at h
      cases h1 : expand (x :: rest) with
      | none => simp [h1] at h
      | some q1 =>
        simp [h1] at h; subst h
        have := ih q1 h1
        simp at this ⊢; omega
  cases h : expand s with
  | none => simp
  | some q =>
    have := key s q h
    simp only
    split
    · simp
    · rw [List.length_take]
      omega

/-- hostile inputs are covered: a dangling `@`, an invalid count and a bare `@=` text. -/
example : (∀ c ∈ ([64] : List UInt8), c ≠ 0) ∧ decode [64] = .done [] ∧
    decode [65, 64, 61] = .done [0, 0] ∧ decode [64, 10, 65] = .done [] := by
  refine ⟨by decide, by decide +kernel, by decide +kernel, by decide +kernel⟩

end FastNoise.Base64
