import Verif.Deserialise
import Verif.StreamLemmas

/-! Helper lemmas: safety of the generic decoder. -/
namespace FastNoise.Deser
open FastNoise.Stream FastNoise.Ser

/-- Hoare-style statement: `x` does not run into undefined behaviour nor exhaust its budget; a null
result satisfies `J`, a normal one `Q`. -/
def Ok {N α : Type} (x : M N α) (s : DSt N) (J : DSt N → Prop) (Q : α → DSt N → Prop) : Prop :=
  match x s with
  | .ub => False
  | .nofuel => False
  | .null s' => J s'
  | .ok a s' => Q a s'

theorem Ok.pure {N α : Type} {a : α} {s : DSt N} {J Q} (h : Q a s) : Ok (M.pure a) s J Q := h

theorem Ok.abort {N α : Type} {s : DSt N} {J} {Q : α → DSt N → Prop} (h : J s) : Ok abort s J Q := h

theorem Ok.mbind {N α β : Type} {x : M N α} {f : α → M N β} {s : DSt N} {J} {Q : β → DSt N → Prop}
    {R : α → DSt N → Prop} (h : Ok x s J R) (h2 : ∀ a s', R a s' → Ok (f a) s' J Q) :
    Ok (M.bind x f) s J Q := by
  unfold Ok at h ⊢
  simp only [M.bind]
  cases hx : x s with
  | ub => simp [hx] at h
  | nofuel => simp [hx] at h
  | null s' => simpa [hx] using h
  | ok a s' =>
    simp only [hx] at h
    exact h2 a s' h

theorem Ok.bind {N α β : Type} {x : M N α} {f : α → M N β} {s : DSt N} {J} {Q : β → DSt N → Prop}
    {R : α → DSt N → Prop} (h : Ok x s J R) (h2 : ∀ a s', R a s' → Ok (f a) s' J Q) :
    Ok (x >>= f) s J Q := Ok.mbind h h2

theorem Ok.mono {N α : Type} {x : M N α} {s : DSt N} {J J' : DSt N → Prop} {Q Q' : α → DSt N → Prop}
    (h : Ok x s J Q) (hJ : ∀ s, J s → J' s) (hQ : ∀ a s, Q a s → Q' a s) : Ok x s J' Q' := by
  unfold Ok at h ⊢
  cases hx : x s with
  | ub => simp [hx] at h
  | nofuel => simp [hx] at h
  | null s' => simp only [hx] at h; exact hJ _ h
  | ok a s' => simp only [hx] at h; exact hQ _ _ h

/-- Bytes not yet read. -/
def rem {N : Type} (s : DSt N) : Nat := s.rs.stream.length - s.rs.pos

theorem readAt_some (st : List UInt8) : ∀ (n pos : Nat), pos + n ≤ st.length →
    ∃ bs, readAt st pos n = some bs ∧ bs.length = n := by
  intro n
  induction n with
  | zero => intro pos _; exact ⟨[], rfl, rfl⟩
  | succ n ih =>
    intro pos h
    obtain ⟨bs, h1, h2⟩ := ih (pos + 1) (by omega)
    have hp : pos < st.length := by omega
    refine ⟨st[pos] :: bs, ?_, by simp [h2]⟩
    simp [readAt, h1, List.getElem?_eq_getElem hp]

/-- State relation of a read: the stream is the same, the position moved forward inside it. -/
structure Adv {N : Type} (s s' : DSt N) (n : Nat) : Prop where
  stream : s'.rs.stream = s.rs.stream
  pos : s'.rs.pos = s.rs.pos + n
  bound : s.rs.pos + n ≤ s.rs.stream.length
  out : s'.out = s.out

theorem getN_ok {N : Type} (n : Nat) (s : DSt N) :
    Ok (getN n) s (fun s' => s' = s) (fun bs s' => bs.length = n ∧ Adv s s' n) := by
  unfold Ok getN liftRd RS.get
  by_cases h1 : s.rs.stack > 0
  · simp [h1]
  · by_cases h2 : s.rs.stream.length < s.rs.pos + n
    · simp [h1, h2]
    · obtain ⟨bs, e1, e2⟩ := readAt_some s.rs.stream n s.rs.pos (by omega)
      simp only [h1, h2, if_false, e1]
      exact ⟨e2, rfl, rfl, by omega, rfl⟩

theorem getLk_ok {N : Type} (old : Nat) (s : DSt N) :
    Ok (getLk old) s (fun s' => s' = s)
      (fun l s' => s'.rs.stream = s.rs.stream ∧ s'.out = s.out ∧ l.type < 8 ∧
        ((l.type = tNodeEnd ∧ s'.rs.pos = s.rs.pos) ∨
         (s'.rs.pos = s.rs.pos + 1 ∧ s.rs.pos + 1 ≤ s.rs.stream.length ∧ l.index < 32))) := by
  unfold Ok getLk liftRd RS.getLookup
  by_cases h1 : s.rs.stack > 0
  · simp [h1, show tNodeEnd < 8 by decide]
  · by_cases h2 : s.rs.stream.length < s.rs.pos + 1
    · simp [h1, h2]
    · obtain ⟨bs, e1, e2⟩ := readAt_some s.rs.stream 1 s.rs.pos (by omega)
      match bs, e2 with
      | [b], _ =>
        have := b.toNat_lt
        simp only [h1, h2, if_false, e1]
        refine ⟨trivial, trivial, by simp [Lookup.ofByte]; omega, Or.inr ⟨trivial, by omega, ?_⟩⟩
        simp [Lookup.ofByte]; omega

/-- What the decoder proof needs from a set of configuring statements.  `K id out n j` is an invariant of
a node `n` of class `id` under construction whose first `j` sources were processed, with `out` the
completed nodes. -/
structure OpsInv {N : Type} (reg : Reg) (o : Ops N) (K : Nat → List N → N → Nat → Prop) : Prop where
  create : ∀ {id m out n}, reg[id]? = some m → o.create id = some n → K id out n 0
  mono : ∀ {id out ext n j}, K id out n j → K id (out ++ ext) n j
  setVar : ∀ {id m out n i v j}, reg[id]? = some m → K id out n j → i < m.vars.length →
    ∃ n', o.setVar n i v = .ok n' ∧ K id out n' j
  setLookup : ∀ {id m out n i c}, reg[id]? = some m → K id out n i → i < m.lookups.length →
    (∀ k, c = some k → ∃ nk idk jk mk outk, out[k]? = some nk ∧ reg[idk]? = some mk ∧ K idk outk nk jk) →
    o.setLookup out n i c = .abort ∨ ∃ n', o.setLookup out n i c = .ok n' ∧ K id out n' (i + 1)
  fill : ∀ {id m out n i}, reg[id]? = some m → K id out n i → i < m.lookups.length →
    o.fill n i = .abort ∨ ∃ n', o.fill n i = .ok n' ∧ K id out n' (i + 1)
  setHybNode : ∀ {id m out n i c j}, reg[id]? = some m → K id out n j → i < m.hybrids.length →
    (∀ k, c = some k → k < out.length) →
    o.setHybNode n i c = .abort ∨ ∃ n', o.setHybNode n i c = .ok n' ∧ K id out n' j
  setHybVal : ∀ {id m out n i v j}, reg[id]? = some m → K id out n j → i < m.hybrids.length →
    ∃ n', o.setHybVal n i v = .ok n' ∧ K id out n' j

/-- Every completed node satisfies the invariant relative to the nodes completed before it. -/
def OutOK {N : Type} (reg : Reg) (K : Nat → List N → N → Nat → Prop) (out : List N) : Prop :=
  ∀ j n, out[j]? = some n → ∃ id m, reg[id]? = some m ∧
    (K id (out.take j) n 0 ∨ K id (out.take j) n m.lookups.length)

/-- Relation between a decoder state and a later one. -/
structure Later {N : Type} (reg : Reg) (K : Nat → List N → N → Nat → Prop) (s s' : DSt N) : Prop where
  stream : s'.rs.stream = s.rs.stream
  pos : s.rs.pos ≤ s'.rs.pos
  bound : s'.rs.pos ≤ s.rs.stream.length
  out : ∃ ext, s'.out = s.out ++ ext
  ok : OutOK reg K s'.out

variable {N : Type} {reg : Reg} {o : Ops N} {K : Nat → List N → N → Nat → Prop}

theorem Later.trans {s s' s'' : DSt N} (h : Later reg K s s') (h' : Later reg K s' s'') :
    Later reg K s s'' := by
  obtain ⟨e1, h1⟩ := h.out
  obtain ⟨e2, h2⟩ := h'.out
  exact ⟨h'.stream.trans h.stream, Nat.le_trans h.pos h'.pos, h.stream ▸ h'.bound,
    ⟨e1 ++ e2, by simp [h2, h1]⟩, h'.ok⟩

theorem Later.refl {s : DSt N} (hb : s.rs.pos ≤ s.rs.stream.length) (h : OutOK reg K s.out) :
    Later reg K s s := ⟨rfl, Nat.le_refl _, hb, ⟨[], by simp⟩, h⟩

theorem Later.rem_le {s s' : DSt N} (h : Later reg K s s') : rem s' ≤ rem s := by
  have := h.pos; simp only [rem, h.stream]; omega

theorem K_later (hK : OpsInv reg o K) {id n j} {s s' : DSt N} (h : Later reg K s s')
    (hk : K id s.out n j) : K id s'.out n j := by
  obtain ⟨e, he⟩ := h.out
  rw [he]; exact hK.mono hk

/-- Invariant part of a state. -/
def SInv (reg : Reg) (K : Nat → List N → N → Nat → Prop) (s : DSt N) : Prop :=
  s.rs.pos ≤ s.rs.stream.length ∧ OutOK reg K s.out

theorem Later.sinv {s s' : DSt N} (h : Later reg K s s') : SInv reg K s' :=
  ⟨h.stream ▸ h.bound, h.ok⟩

theorem getN_later (n : Nat) {s : DSt N} (hs : SInv reg K s) :
    Ok (getN n) s (Later reg K s) (fun bs s' => bs.length = n ∧ Later reg K s s' ∧ rem s' + n ≤ rem s) := by
  refine Ok.mono (getN_ok n s) ?_ ?_
  · rintro s' rfl; exact Later.refl hs.1 hs.2
  · rintro bs s' ⟨h1, h2⟩
    refine ⟨h1, ⟨h2.stream, by rw [h2.pos]; omega, by rw [h2.pos]; exact h2.bound,
      ⟨[], by simp [h2.out]⟩, h2.out ▸ hs.2⟩, ?_⟩
    have := h2.bound
    simp only [rem, h2.stream, h2.pos]; omega

theorem getLk_later (old : Nat) {s : DSt N} (hs : SInv reg K s) :
    Ok (getLk old) s (Later reg K s) (fun l s' => Later reg K s s' ∧
      (l.type = tNodeEnd ∨ (rem s' + 1 ≤ rem s ∧ l.index < 32))) := by
  refine Ok.mono (getLk_ok old s) ?_ ?_
  · rintro s' rfl; exact Later.refl hs.1 hs.2
  · rintro l s' ⟨h1, h2, _, h3⟩
    refine ⟨⟨h1, by omega, ?_, ⟨[], by simp [h2]⟩, h2 ▸ hs.2⟩, ?_⟩
    · have := hs.1; omega
    · rcases h3 with h | h
      · exact Or.inl h.1
      · refine Or.inr ⟨?_, h.2.2⟩
        simp only [rem, h1, h.1]; omega

theorem act_ok {α : Type} {a : Act α} {s : DSt N} {J : DSt N → Prop} {Q : α → DSt N → Prop}
    (h : (a = .abort ∧ J s) ∨ ∃ n', a = .ok n' ∧ Q n' s) : Ok (act a) s J Q := by
  rcases h with ⟨h, hj⟩ | ⟨n', h, hq⟩
  · subst h; exact hj
  · subst h; exact hq

theorem actIf_ok {c : Prop} [Decidable c] {a : Act N} {n : N} {s : DSt N} {J : DSt N → Prop}
    {Q : N → DSt N → Prop} (h : c → (a = .abort ∧ J s) ∨ ∃ n', a = .ok n' ∧ Q n' s)
    (h2 : ¬ c → Q n s) : Ok (actIf c a n) s J Q := by
  unfold actIf
  split
  · rename_i hc; exact act_ok (h hc)
  · rename_i hc; exact Ok.pure (h2 hc)

theorem varLoop_ok (hK : OpsInv reg o K) {id : Nat} {m : Meta} (hm : reg[id]? = some m) :
    ∀ (fuel : Nat) (l : Lookup) (n : N) (s : DSt N), SInv reg K s → K id s.out n 0 → rem s < fuel →
    Ok (varLoop o m.vars.length fuel l n) s (Later reg K s)
      (fun r s' => Later reg K s s' ∧ K id s'.out r.2 0) := by
  intro fuel
  induction fuel with
  | zero => intro l n s _ _ h; omega
  | succ fuel ih =>
    intro l n s hs hn hf
    unfold varLoop
    split
    · refine Ok.bind (getN_later 4 hs) ?_
      rintro bs s1 ⟨_, h1, hr1⟩
      refine Ok.bind (R := fun n' s2 => s2 = s1 ∧ K id s1.out n' 0) ?_ ?_
      · have hn1 := K_later hK h1 hn
        refine actIf_ok (fun hi => ?_) (fun _ => ⟨rfl, hn1⟩)
        obtain ⟨n', e1, e2⟩ := hK.setVar (v := unle32 bs) hm hn1 hi
        exact Or.inr ⟨n', e1, rfl, e2⟩
      · rintro n' s2 ⟨rfl, hn'⟩
        refine Ok.bind (Ok.mono (getLk_later l.index h1.sinv) (fun _ h => h1.trans h) (fun _ _ h => h)) ?_
        rintro l' s3 ⟨h3, _⟩
        have h13 := h1.trans h3
        refine Ok.mono (ih l' n' s3 h3.sinv (K_later hK h3 hn') ?_) (fun _ h => h13.trans h) ?_
        · have := h3.rem_le; omega
        · rintro r s4 ⟨ha, hb⟩; exact ⟨h13.trans ha, hb⟩
    · exact Ok.pure ⟨Later.refl hs.1 hs.2, hn⟩

/-- Specification of a recursive call. -/
def RecOK (reg : Reg) (K : Nat → List N → N → Nat → Prop) (rec : M N Nat) (b : Nat) : Prop :=
  ∀ s, SInv reg K s → rem s < b → Ok rec s (Later reg K s)
    (fun r s' => Later reg K s s' ∧ r < s'.out.length)

theorem tryNull_ok {rec : M N Nat} {b : Nat} (hr : RecOK reg K rec b) {s : DSt N} (hs : SInv reg K s)
    (hb : rem s < b) : Ok (tryNull rec) s (Later reg K s)
      (fun c s' => Later reg K s s' ∧ ∀ k, c = some k → k < s'.out.length) := by
  have := hr s hs hb
  unfold Ok tryNull at *
  cases hx : rec s with
  | ub => simp [hx] at this
  | nofuel => simp [hx] at this
  | null s' => simp only [hx] at this ⊢; exact ⟨this, by simp⟩
  | ok a s' => simp only [hx] at this ⊢; exact ⟨this.1, by simp [this.2]⟩

theorem out_child {s : DSt N} (hs : SInv reg K s) {k : Nat} (hk : k < s.out.length) :
    ∃ nk idk jk mk outk, s.out[k]? = some nk ∧ reg[idk]? = some mk ∧ K idk outk nk jk := by
  have h := List.getElem?_eq_getElem hk
  obtain ⟨id, m, h1, h2 | h2⟩ := hs.2 k _ h
  · exact ⟨_, _, _, _, _, h, h1, h2⟩
  · exact ⟨_, _, _, _, _, h, h1, h2⟩

theorem childLoop_ok (hK : OpsInv reg o K) {id : Nat} {m : Meta} (hm : reg[id]? = some m)
    {rec : M N Nat} {b : Nat} (hr : RecOK reg K rec b) :
    ∀ (count i : Nat) (n : N) (s : DSt N), SInv reg K s → K id s.out n (min i m.lookups.length) → rem s < b →
    Ok (childLoop o m.lookups.length rec count i n) s (Later reg K s)
      (fun n' s' => Later reg K s s' ∧ K id s'.out n' (min (i + count) m.lookups.length)) := by
  intro count
  induction count with
  | zero => intro i n s hs hn hb; exact Ok.pure ⟨Later.refl hs.1 hs.2, hn⟩
  | succ count ih =>
    intro i n s hs hn hb
    unfold childLoop
    refine Ok.bind (tryNull_ok hr hs hb) ?_
    rintro c s1 ⟨h1, hc⟩
    have hn1 := K_later hK h1 hn
    have hb1 : rem s1 < b := Nat.lt_of_le_of_lt h1.rem_le hb
    split
    · rename_i hi
      refine Ok.bind (R := fun n' s2 => s2 = s1 ∧ K id s1.out n' (i + 1)) ?_ ?_
      · rw [Nat.min_eq_left (by omega)] at hn1
        rcases hK.setLookup (c := c) hm hn1 hi (fun k hk => out_child h1.sinv (hc k hk)) with e | ⟨n', e1, e2⟩
        · exact act_ok (Or.inl ⟨e, h1⟩)
        · exact act_ok (Or.inr ⟨n', e1, rfl, e2⟩)
      · rintro n' s2 ⟨rfl, hn'⟩
        refine Ok.mono (ih (i + 1) n' s2 h1.sinv ?_ hb1) (fun _ h => h1.trans h) ?_
        · rw [Nat.min_eq_left (by omega)]; exact hn'
        · rintro r s3 ⟨ha, hb⟩
          refine ⟨h1.trans ha, ?_⟩
          rw [show i + (count + 1) = i + 1 + count by omega]; exact hb
    · rename_i hi
      split
      · refine Ok.mono (ih (i + 1) n s1 h1.sinv ?_ hb1) (fun _ h => h1.trans h) ?_
        · rw [Nat.min_eq_right (by omega)] at hn1 ⊢; exact hn1
        · rintro r s3 ⟨ha, hb⟩
          refine ⟨h1.trans ha, ?_⟩
          rw [show i + (count + 1) = i + 1 + count by omega]; exact hb
      · exact Ok.abort h1

theorem fillLoop_ok (hK : OpsInv reg o K) {id : Nat} {m : Meta} (hm : reg[id]? = some m) :
    ∀ (count i : Nat) (n : N) (s : DSt N), SInv reg K s → K id s.out n i →
      (i + count = m.lookups.length ∨ (count = 0 ∧ i = m.lookups.length)) →
    Ok (fillLoop o count i n) s (Later reg K s)
      (fun n' s' => s' = s ∧ K id s.out n' m.lookups.length) := by
  intro count
  induction count with
  | zero =>
    intro i n s hs hn he
    have : i = m.lookups.length := by omega
    subst this
    exact Ok.pure ⟨rfl, hn⟩
  | succ count ih =>
    intro i n s hs hn he
    unfold fillLoop
    refine Ok.bind (R := fun n' s2 => s2 = s ∧ K id s.out n' (i + 1)) ?_ ?_
    · rcases hK.fill hm hn (by omega) with e | ⟨n', e1, e2⟩
      · exact act_ok (Or.inl ⟨e, Later.refl hs.1 hs.2⟩)
      · exact act_ok (Or.inr ⟨n', e1, rfl, e2⟩)
    · rintro n' s2 ⟨rfl, hn'⟩
      exact ih (i + 1) n' s2 hs hn' (by omega)

theorem hybLoop_ok (hK : OpsInv reg o K) {id : Nat} {m : Meta} (hm : reg[id]? = some m)
    {rec : M N Nat} {b : Nat} (hr : RecOK reg K rec b) :
    ∀ (fuel : Nat) (l : Lookup) (n : N) (s : DSt N) (j : Nat), SInv reg K s → K id s.out n j → rem s < b →
      (l.type = tNodeEnd ∧ 0 < fuel ∨ rem s + 1 < fuel) →
    Ok (hybLoop o m.hybrids.length rec fuel l n) s (Later reg K s)
      (fun n' s' => Later reg K s s' ∧ K id s'.out n' j) := by
  intro fuel
  induction fuel with
  | zero => intro l n s j _ _ _ h; omega
  | succ fuel ih =>
    intro l n s j hs hn hb hf
    -- continuation shared by all three kinds of entries
    have next : ∀ (n' : N) (s1 : DSt N), l.type ≠ tNodeEnd → Later reg K s s1 → K id s1.out n' j →
        Ok (getLk l.index >>= fun l' => hybLoop o m.hybrids.length rec fuel l' n') s1 (Later reg K s)
          (fun n' s' => Later reg K s s' ∧ K id s'.out n' j) := by
      intro n' s1 hl h1 hn'
      refine Ok.bind (Ok.mono (getLk_later l.index h1.sinv) (fun _ h => h1.trans h) (fun _ _ h => h)) ?_
      rintro l' s3 ⟨h3, hl'⟩
      have h13 := h1.trans h3
      have hle := h1.rem_le
      refine Ok.mono (ih l' n' s3 j h3.sinv (K_later hK h3 hn') ?_ ?_) (fun _ h => h13.trans h) ?_
      · have := h3.rem_le; omega
      · rcases hl' with h | h
        · exact Or.inl ⟨h, by omega⟩
        · exact Or.inr (by omega)
      · rintro r s4 ⟨ha, hb⟩; exact ⟨h13.trans ha, hb⟩
    unfold hybLoop
    split
    · exact Ok.pure ⟨Later.refl hs.1 hs.2, hn⟩
    · rename_i hl
      split
      · refine Ok.bind (tryNull_ok hr hs hb) ?_
        rintro c s1 ⟨h1, hc⟩
        have hn1 := K_later hK h1 hn
        refine Ok.bind (R := fun n' s2 => s2 = s1 ∧ K id s1.out n' j) ?_ ?_
        · refine actIf_ok (fun hi => ?_) (fun _ => ⟨rfl, hn1⟩)
          rcases hK.setHybNode (c := c) hm hn1 hi hc with e | ⟨n', e1, e2⟩
          · exact Or.inl ⟨e, h1⟩
          · exact Or.inr ⟨n', e1, rfl, e2⟩
        · rintro n' s2 ⟨rfl, hn'⟩
          exact next n' s2 hl h1 hn'
      · split
        · refine Ok.bind (getN_later 4 hs) ?_
          rintro bs s1 ⟨_, h1, _⟩
          have hn1 := K_later hK h1 hn
          refine Ok.bind (R := fun n' s2 => s2 = s1 ∧ K id s1.out n' j) ?_ ?_
          · refine actIf_ok (fun hi => ?_) (fun _ => ⟨rfl, hn1⟩)
            obtain ⟨n', e1, e2⟩ := hK.setHybVal (v := unle32 bs) hm hn1 hi
            exact Or.inr ⟨n', e1, rfl, e2⟩
          · rintro n' s2 ⟨rfl, hn'⟩
            exact next n' s2 hl h1 hn'
        · exact next n s hl (Later.refl hs.1 hs.2) hn

theorem OutOK.push {out : List N} (h : OutOK reg K out) {id : Nat} {m : Meta} {n : N}
    (hm : reg[id]? = some m) (hn : K id out n 0 ∨ K id out n m.lookups.length) :
    OutOK reg K (out ++ [n]) := by
  intro j x hx
  by_cases hj : j < out.length
  · rw [List.getElem?_append_left hj] at hx
    rw [List.take_append_of_le_length (by omega)]
    exact h j x hx
  · rw [List.getElem?_append_right (by omega)] at hx
    have : j = out.length := by
      have := (List.getElem?_eq_some_iff.mp hx).1
      simp at this; omega
    subst this
    simp at hx; subst hx
    refine ⟨id, m, hm, ?_⟩
    simpa using hn

theorem decNode_ok (hK : OpsInv reg o K) : ∀ (fuel : Nat), RecOK reg K (decNode reg o fuel) fuel := by
  intro fuel
  induction fuel with
  | zero => intro s _ h; omega
  | succ fuel ih =>
    intro s hs hf
    unfold decNode
    refine Ok.bind (getN_later 1 hs) ?_
    rintro bs s1 ⟨_, h1, hr1⟩
    have hb1 : rem s1 < fuel := by omega
    simp only
    split
    · -- back reference
      unfold getRef
      refine Ok.bind (Ok.mono (getN_later 2 h1.sinv) (fun _ h => h1.trans h) (fun _ _ h => h)) ?_
      rintro bs2 s2 ⟨_, h2, _⟩
      unfold Ok
      by_cases hlt : unle16 bs2 ≥ s2.out.length
      · simp only [hlt, if_true]; exact h1.trans h2
      · simp only [hlt, if_false]; exact ⟨h1.trans h2, by omega⟩
    · split
      · exact Ok.abort h1
      · rename_i m hm
        split
        · exact Ok.abort h1
        · rename_i n hn
          have hn0 := hK.create (out := s1.out) hm hn
          refine Ok.bind (Ok.mono (getLk_later 0 h1.sinv) (fun _ h => h1.trans h) (fun _ _ h => h)) ?_
          rintro l s2 ⟨h2, _⟩
          have h12 := h1.trans h2
          refine Ok.bind (R := fun r s' => Later reg K s s' ∧ rem s' < fuel ∧
            K (bs.headD 0).toNat s'.out r.2 0) ?_ ?_
          · have := varLoop_ok hK hm (loopFuel s2) l n s2 h2.sinv (K_later hK h2 hn0)
              (by simp only [loopFuel, rem]; omega)
            refine Ok.mono (x := varLoop o m.vars.length (loopFuel s2) l n) this
              (fun _ h => h12.trans h) ?_
            rintro r s' ⟨ha, hb⟩
            exact ⟨h12.trans ha, by have := ha.rem_le; have := h2.rem_le; omega, hb⟩
          · rintro ⟨l3, n3⟩ s3 ⟨h3, hb3, hn3⟩
            refine Ok.bind (R := fun r s' => Later reg K s s' ∧ rem s' < fuel ∧
              (K (bs.headD 0).toNat s'.out r.2 0 ∨
               K (bs.headD 0).toNat s'.out r.2 m.lookups.length)) ?_ ?_
            · unfold lookupPart
              simp only
              split
              · refine Ok.bind (Ok.mono (childLoop_ok hK hm ih l3.index 0 n3 s3 h3.sinv (by simpa using hn3) hb3)
                  (fun _ h => h3.trans h) (fun _ _ h => h)) ?_
                rintro n4 s4 ⟨h4, hn4⟩
                refine Ok.bind (R := fun n' s' => s' = s4 ∧
                  K (bs.headD 0).toNat s4.out n' m.lookups.length) ?_ ?_
                · by_cases hle : l3.index ≤ m.lookups.length
                  · refine Ok.mono (fillLoop_ok hK hm (m.lookups.length - l3.index) l3.index n4 s4 h4.sinv ?_ ?_)
                      (fun _ h => (h3.trans h4).trans h) (fun _ _ h => h)
                    · simpa [Nat.min_eq_left hle] using hn4
                    · omega
                  · rw [show m.lookups.length - l3.index = 0 by omega]
                    refine Ok.pure ⟨rfl, ?_⟩
                    simpa [Nat.min_eq_right (show m.lookups.length ≤ l3.index by omega)] using hn4
                · rintro n5 s5 ⟨rfl, hn5⟩
                  refine Ok.bind (Ok.mono (getLk_later l3.index h4.sinv)
                    (fun _ h => (h3.trans h4).trans h) (fun _ _ h => h)) ?_
                  rintro l6 s6 ⟨h6, _⟩
                  refine Ok.pure ⟨(h3.trans h4).trans h6, ?_, Or.inr (K_later hK h6 hn5)⟩
                  have := h6.rem_le; have := h4.rem_le; omega
              · exact Ok.pure ⟨h3, hb3, Or.inl hn3⟩
            · rintro ⟨l7, n7⟩ s7 ⟨h7, hb7, hn7⟩
              simp only at hn7 ⊢
              have hh : ∀ j, K (bs.headD 0).toNat s7.out n7 j →
                  Ok (fun s => hybLoop o m.hybrids.length (decNode reg o fuel)
                  (loopFuel s) l7 n7 s) s7 (Later reg K s)
                  (fun n' s' => Later reg K s s' ∧ K (bs.headD 0).toNat s'.out n' j) := by
                intro j hj
                have := hybLoop_ok hK hm ih (loopFuel s7) l7 n7 s7 j h7.sinv hj hb7
                  (Or.inr (by simp only [loopFuel, rem]; omega))
                refine Ok.mono (x := hybLoop o m.hybrids.length (decNode reg o fuel) (loopFuel s7) l7 n7) this
                  (fun _ h => h7.trans h) ?_
                rintro r s' ⟨ha, hb⟩
                exact ⟨h7.trans ha, hb⟩
              refine Ok.bind (R := fun n' s' => Later reg K s s' ∧
                (K (bs.headD 0).toNat s'.out n' 0 ∨
                 K (bs.headD 0).toNat s'.out n' m.lookups.length)) ?_ ?_
              · rcases hn7 with h | h
                · exact Ok.mono (hh _ h) (fun _ h => h) (fun _ _ h => ⟨h.1, Or.inl h.2⟩)
                · exact Ok.mono (hh _ h) (fun _ h => h) (fun _ _ h => ⟨h.1, Or.inr h.2⟩)
              · rintro n8 s8 ⟨h8, hn8⟩
                unfold Ok push
                simp only
                refine ⟨⟨h8.stream, h8.pos, h8.bound, ?_, h8.ok.push hm hn8⟩, by simp⟩
                obtain ⟨e, he⟩ := h8.out
                exact ⟨e ++ [n8], by simp [he]⟩

theorem run_ok (hK : OpsInv reg o K) (bytes : List UInt8) :
    run (decNode reg o (bytes.length + 1)) bytes = .null ∨
    ∃ r out, run (decNode reg o (bytes.length + 1)) bytes = .tree r out ∧ r < out.length ∧
      OutOK reg K out := by
  have := decNode_ok hK (bytes.length + 1) (start bytes)
    ⟨by simp [start], by intro j n h; simp [start] at h⟩ (by simp [rem, start])
  unfold Ok at this
  unfold run
  cases hx : decNode reg o (bytes.length + 1) (start bytes) with
  | ub => simp [hx] at this
  | nofuel => simp [hx] at this
  | null s => exact Or.inl rfl
  | ok r s =>
    simp only [hx] at this
    exact Or.inr ⟨r, s.out, rfl, this.2, this.1.ok⟩

end FastNoise.Deser
