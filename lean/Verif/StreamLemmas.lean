import Verif.Stream

/-! Helper lemmas: logical token view of the byte stream. -/
namespace FastNoise.Stream

/-- Logical stream items: ordinary bytes and node ends. -/
inductive Tok where
  | raw (b : UInt8)
  | nodeEnd
deriving DecidableEq, Repr

def raws (bs : List UInt8) : List Tok := bs.map .raw

def WS.tok (d : WS) : Tok → WS
  | .raw b => d.add [b]
  | .nodeEnd => d.nodeEnd

def WS.toks (d : WS) (ts : List Tok) : WS := ts.foldl WS.tok d

@[simp] theorem WS.toks_nil (d : WS) : d.toks [] = d := rfl
theorem WS.toks_append (d : WS) (a b : List Tok) : d.toks (a ++ b) = (d.toks a).toks b := by
  simp [WS.toks, List.foldl_append]
theorem WS.toks_cons (d : WS) (a : Tok) (b : List Tok) : d.toks (a :: b) = (d.tok a).toks b := rfl

theorem WS.flush_flush (d : WS) : d.flush.flush = d.flush := by
  unfold WS.flush; split <;> simp_all

theorem WS.flush_stack (d : WS) : d.flush.stack = 0 := by
  unfold WS.flush; split
  · rfl
  · simp_all

theorem WS.add_flush (d : WS) (bs : List UInt8) : d.flush.add bs = d.add bs := by
  simp [WS.add, WS.flush_flush]

theorem WS.add_stack (d : WS) (bs : List UInt8) : (d.add bs).stack = 0 := by
  simp [WS.add, WS.flush_stack]

theorem WS.flush_of_zero {d : WS} (h : d.stack = 0) : d.flush = d := by
  simp [WS.flush, h]

theorem WS.add_add (d : WS) (a b : List UInt8) : (d.add a).add b = d.add (a ++ b) := by
  have h : (d.add a).flush = d.add a := WS.flush_of_zero (WS.add_stack d a)
  have h2 : ∀ (e : WS), e.add b = { e.flush with stream := e.flush.stream ++ b } := fun _ => rfl
  rw [h2, h]
  simp [WS.add]

theorem WS.add_eq_toks (d : WS) (b : UInt8) (bs : List UInt8) : d.add (b :: bs) = d.toks (raws (b :: bs)) := by
  induction bs generalizing d b with
  | nil => rfl
  | cons c bs ih =>
    have : d.add (b :: c :: bs) = (d.add [b]).add (c :: bs) := by rw [WS.add_add]; rfl
    rw [this, ih]; rfl

/-- The physical bytes of a token list with `k` node ends already pending. -/
def phys : Nat → List Tok → List UInt8
  | k, [] => if k > 0 then [lookupByte tNodeEnd (k - 1)] else []
  | k, .nodeEnd :: t => if k + 1 < 32 then phys (k + 1) t else lookupByte tNodeEnd 31 :: phys 0 t
  | k, .raw b :: t => (if k > 0 then [lookupByte tNodeEnd (k - 1)] else []) ++ b :: phys 0 t

theorem toks_phys (ts : List Tok) : ∀ (d : WS), d.stack < 32 →
    ((d.toks ts).flush.stream = d.stream ++ phys d.stack ts) ∧ (d.toks ts).stack < 32 := by
  induction ts with
  | nil =>
    intro d hd
    refine ⟨?_, hd⟩
    simp only [WS.toks_nil, WS.flush, phys]
    split <;> simp_all
  | cons t ts ih =>
    intro d hd
    rw [WS.toks_cons]
    cases t with
    | raw b =>
      have hs : (d.tok (.raw b)).stack = 0 := WS.add_stack _ _
      obtain ⟨h1, h2⟩ := ih (d.tok (.raw b)) (by omega)
      refine ⟨?_, h2⟩
      rw [h1, hs]
      simp only [WS.tok, WS.add, WS.flush, phys]
      split <;> simp
    | nodeEnd =>
      by_cases hk : d.stack + 1 < 32
      · have hd' : d.tok .nodeEnd = { d with stack := d.stack + 1 } := by
          simp [WS.tok, WS.nodeEnd, hk]
        obtain ⟨h1, h2⟩ := ih (d.tok .nodeEnd) (by rw [hd']; exact hk)
        refine ⟨?_, h2⟩
        rw [h1, hd']
        simp [phys, hk]
      · have hd' : d.tok .nodeEnd = { stream := d.stream ++ [lookupByte tNodeEnd 31], stack := 0 } := by
          have : d.stack = 31 := by omega
          simp [WS.tok, WS.nodeEnd, WS.flush, this]
        obtain ⟨h1, h2⟩ := ih (d.tok .nodeEnd) (by rw [hd']; simp)
        refine ⟨?_, h2⟩
        rw [h1, hd']
        simp [phys, hk]

/-- A reader state represents the remaining tokens `ts`. -/
def Rep (d : RS) (ts : List Tok) : Prop :=
  ∃ t, ts = List.replicate d.stack .nodeEnd ++ t ∧ d.stream.drop d.pos = phys 0 t

theorem rep_start (ts : List Tok) : Rep { stream := phys 0 ts, pos := 0, stack := 0 } ts :=
  ⟨ts, by simp, by simp⟩

theorem readAt_eq (s : List UInt8) : ∀ (n pos : Nat) (bs rest : List UInt8), s.drop pos = bs ++ rest →
    bs.length = n → readAt s pos n = some bs := by
  intro n
  induction n with
  | zero => intro pos bs rest h hl; simp [List.length_eq_zero_iff.mp hl, readAt]
  | succ n ih =>
    intro pos bs rest h hl
    match bs, hl with
    | b :: bs, hl =>
      have h0 : s[pos]? = some b := by
        have := congrArg (fun l => l[0]?) h
        simpa using this
      have h1 : s.drop (pos + 1) = bs ++ rest := by
        rw [← List.drop_drop, h]; simp
      simp [readAt, h0, ih (pos + 1) bs rest h1 (by simpa using hl)]

theorem get_eq {d : RS} {bs rest : List UInt8} (hs : d.stack = 0) (h : d.stream.drop d.pos = bs ++ rest)
    (hb : bs ≠ []) : d.get bs.length = .ok bs { d with pos := d.pos + bs.length } := by
  have hlen := congrArg List.length h
  simp at hlen
  have hbl : 0 < bs.length := List.length_pos_iff.mpr hb
  unfold RS.get
  rw [if_neg (by omega), if_neg (by omega), readAt_eq d.stream bs.length d.pos bs rest h rfl]

theorem phys_raws (bs : List UInt8) (ts : List Tok) : phys 0 (raws bs ++ ts) = bs ++ phys 0 ts := by
  induction bs with
  | nil => simp [raws]
  | cons b bs ih => simp only [raws, List.map_cons, List.cons_append, phys] at ih ⊢; simp [ih]

theorem rep_raw {d : RS} {b : UInt8} {ts : List Tok} (h : Rep d (.raw b :: ts)) :
    d.stack = 0 ∧ d.stream.drop d.pos = phys 0 (.raw b :: ts) := by
  obtain ⟨t, h1, h2⟩ := h
  cases hk : d.stack with
  | zero => rw [hk] at h1; simp at h1; subst h1; exact ⟨rfl, h2⟩
  | succ k => rw [hk, List.replicate_succ] at h1; simp at h1

theorem get_rep {d : RS} {bs : List UInt8} {ts : List Tok} (hb : bs ≠ []) (h : Rep d (raws bs ++ ts)) :
    ∃ d', d.get bs.length = .ok bs d' ∧ Rep d' ts ∧ d'.stream = d.stream := by
  match bs, hb with
  | b :: bs, hb =>
    obtain ⟨h1, h2⟩ := rep_raw (by simpa [raws] using h)
    have h3 : d.stream.drop d.pos = (b :: bs) ++ phys 0 ts := by
      rw [h2, ← phys_raws]; rfl
    refine ⟨_, get_eq h1 h3 (by simp), ⟨ts, ?_, ?_⟩, rfl⟩
    · simp [h1]
    · simp only
      rw [← List.drop_drop, h3]
      simp

theorem getLookup_rep_raw {d : RS} {b : UInt8} {ts : List Tok} (h : Rep d (.raw b :: ts))
    (hb : b.toNat % 8 ≠ 4) (old : Nat) :
    ∃ d', d.getLookup old = .ok (Lookup.ofByte b) d' ∧ Rep d' ts ∧ d'.stream = d.stream := by
  obtain ⟨h1, h2⟩ := rep_raw h
  have h3 : d.stream.drop d.pos = [b] ++ phys 0 ts := by
    rw [h2]; simp [phys]
  have hlen := congrArg List.length h3
  simp at hlen
  unfold RS.getLookup
  rw [if_neg (by omega), if_neg (by omega), readAt_eq d.stream 1 d.pos [b] _ h3 rfl]
  refine ⟨_, rfl, ⟨ts, ?_, ?_⟩, rfl⟩
  · simp only [Lookup.ofByte, hb, if_false, h1]; simp
  · simp only
    rw [← List.drop_drop, h3]
    simp

theorem lookupByte_type (t i : Nat) : (lookupByte t i).toNat % 8 = t % 8 := by
  simp [lookupByte]
theorem lookupByte_index (t i : Nat) : (lookupByte t i).toNat / 8 = i % 32 := by
  simp [lookupByte]; omega

theorem ofByte_lookupByte {t i : Nat} (ht : t < 8) (hi : i < 32) :
    Lookup.ofByte (lookupByte t i) = { type := t, index := i } := by
  simp [Lookup.ofByte, lookupByte_type, lookupByte_index, Nat.mod_eq_of_lt ht, Nat.mod_eq_of_lt hi]

theorem phys_pending (t : List Tok) : ∀ k, 0 < k → k < 32 →
    ∃ j t', t = List.replicate j .nodeEnd ++ t' ∧ k + j ≤ 32 ∧
      phys k t = lookupByte tNodeEnd (k + j - 1) :: phys 0 t' := by
  induction t with
  | nil => intro k h1 h2; exact ⟨0, [], by simp, by omega, by simp [phys, h1]⟩
  | cons x t ih =>
    intro k h1 h2
    cases x with
    | raw b => exact ⟨0, .raw b :: t, by simp, by omega, by simp [phys, h1]⟩
    | nodeEnd =>
      by_cases hk : k + 1 < 32
      · obtain ⟨j, t', e1, e2, e3⟩ := ih (k + 1) (by omega) hk
        refine ⟨j + 1, t', by rw [List.replicate_succ, e1]; rfl, by omega, ?_⟩
        simp only [phys, hk, if_true, e3]
        rw [show k + 1 + j - 1 = k + (j + 1) - 1 by omega]
      · refine ⟨1, t, by simp, by omega, ?_⟩
        have : k = 31 := by omega
        subst this
        simp [phys]

theorem getLookup_rep_end {d : RS} {ts : List Tok} (h : Rep d (.nodeEnd :: ts)) (old : Nat) :
    ∃ d' i, d.getLookup old = .ok { type := tNodeEnd, index := i } d' ∧ Rep d' ts ∧
      d'.stream = d.stream := by
  obtain ⟨t, h1, h2⟩ := h
  cases hk : d.stack with
  | succ k =>
    rw [hk, List.replicate_succ] at h1
    simp at h1
    refine ⟨{ d with stack := d.stack - 1 }, old, ?_, ⟨t, ?_, h2⟩, rfl⟩
    · unfold RS.getLookup; rw [if_pos (by omega)]
    · simp [hk, h1]
  | zero =>
    rw [hk] at h1
    simp at h1
    subst h1
    obtain ⟨j, t', e1, e2, e3⟩ := phys_pending ts 1 (by omega) (by omega)
    have h3 : d.stream.drop d.pos = [lookupByte tNodeEnd j] ++ phys 0 t' := by
      rw [h2]
      simp only [phys, show (0 + 1 < 32) by omega, if_true]
      rw [e3]; simp
    have hlen := congrArg List.length h3
    simp at hlen
    unfold RS.getLookup
    rw [if_neg (by omega), if_neg (by omega), readAt_eq d.stream 1 d.pos _ _ h3 rfl]
    have hb := ofByte_lookupByte (t := tNodeEnd) (i := j) (by decide) (by omega)
    refine ⟨{ d with pos := d.pos + 1, stack := j }, j, by simp [hb], ⟨t', ?_, ?_⟩, rfl⟩
    · simp [e1]
    · simp only
      rw [← List.drop_drop, h3]
      simp

theorem le32_len (v : UInt32) : (le32 v).length = 4 := rfl
theorem unle32_le32 (v : UInt32) : unle32 (le32 v) = v := by
  have := v.toNat_lt
  simp only [unle32, le32, UInt8.toNat_ofNat']
  apply UInt32.toNat_inj.mp
  simp only [UInt32.toNat_ofNat']
  omega
theorem unle16_le16 {v : Nat} (h : v < 65536) : unle16 (le16 v) = v := by
  simp only [unle16, le16, UInt8.toNat_ofNat']
  omega

end FastNoise.Stream
