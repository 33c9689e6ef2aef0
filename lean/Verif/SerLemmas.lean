import Verif.RoundTrip2
import Verif.Base64Spec

/-! Helper lemmas about the serialiser: zero runs and size of the stream it writes. -/
namespace FastNoise.RT
open FastNoise.Stream FastNoise.Ser FastNoise.Deser FastNoise.Spec FastNoise.Registry
open Relation

/-! ### Zero runs -/

def zstep (s : Nat × Bool) (b : UInt8) : Nat × Bool :=
  if b = 0 then (s.1 + 1, s.2 && decide (s.1 + 1 < 48)) else (0, s.2)

def zscan (l : List UInt8) : Nat × Bool := l.foldl zstep (0, true)

theorem zscan_append (a b : List UInt8) : zscan (a ++ b) = b.foldl zstep (zscan a) := by
  simp [zscan, List.foldl_append]

theorem zfold_false (l : List UInt8) : ∀ n, (l.foldl zstep (n, false)).2 = false := by
  induction l with
  | nil => intro n; rfl
  | cons b l ih =>
    intro n
    simp only [List.foldl_cons, zstep]
    split
    · simpa using ih _
    · exact ih _

theorem zfold_zeros (k : Nat) : ∀ n b, (((List.replicate k (0 : UInt8)).foldl zstep (n, b)).1 = n + k) ∧
    (48 ≤ n + k → 0 < k → ((List.replicate k (0 : UInt8)).foldl zstep (n, b)).2 = false) := by
  induction k with
  | zero => intro n b; simp
  | succ k ih =>
    intro n b
    simp only [List.replicate_succ, List.foldl_cons, zstep, if_true]
    obtain ⟨h1, h2⟩ := ih (n + 1) (b && decide (n + 1 < 48))
    refine ⟨by rw [h1]; omega, fun h _ => ?_⟩
    by_cases hk : 0 < k
    · exact h2 (by omega) hk
    · have : k = 0 := by omega
      subst this
      simp; omega

theorem zscan_norun {l : List UInt8} (h : (zscan l).2 = true) : ¬ HasRun 48 (0 : UInt8) l := by
  rintro ⟨p, q, e⟩
  have hq : (zscan (p ++ List.replicate 48 0 ++ q)).2 = false := by
    rw [zscan_append, zscan_append]
    rcases hp : zscan p with ⟨n, b⟩
    obtain ⟨h1, h2⟩ := zfold_zeros 48 n b
    have h3 := h2 (by omega) (by omega)
    generalize (List.replicate 48 (0 : UInt8)).foldl zstep (n, b) = x at *
    obtain ⟨x1, x2⟩ := x
    simp only at h3
    subst h3
    exact zfold_false q _
  rw [← e, h] at hq
  simp at hq

theorem zfold_bound (bs : List UInt8) : ∀ n, n + bs.length < 48 →
    (bs.foldl zstep (n, true)).1 ≤ n + bs.length ∧ (bs.foldl zstep (n, true)).2 = true := by
  induction bs with
  | nil => intro n _; simp
  | cons b bs ih =>
    intro n h
    simp only [List.length_cons] at h
    simp only [List.foldl_cons, zstep, List.length_cons]
    split
    · have : decide (n + 1 < 48) = true := by simp; omega
      simp only [this, Bool.and_self]
      have := ih (n + 1) (by omega)
      exact ⟨by omega, this.2⟩
    · have := ih 0 (by omega)
      exact ⟨by omega, this.2⟩

/-- No 48 zero bytes written so far; at most `n` trailing zero bytes unless a node end is pending. -/
def Z (n : Nat) (ws : WS) : Prop := (zscan ws.stream).2 = true ∧ (ws.stack = 0 → (zscan ws.stream).1 ≤ n)

theorem Z.mono {n m : Nat} {ws : WS} (h : Z n ws) (hm : n ≤ m) : Z m ws :=
  ⟨h.1, fun e => Nat.le_trans (h.2 e) hm⟩

theorem lookupByte_ne {t i : Nat} (h : t % 8 ≠ 0) : lookupByte t i ≠ 0 := by
  intro e
  have := lookupByte_type t i
  rw [e] at this
  simp at this; omega

theorem zscan_nz {l : List UInt8} {b : UInt8} (hb : b ≠ 0) : zscan (l ++ [b]) = (0, (zscan l).2) := by
  rw [zscan_append]; simp [zstep, hb]

theorem Z.flush {n : Nat} {ws : WS} (h : Z n ws) : Z n ws.flush := by
  unfold WS.flush
  split
  · have hz := zscan_nz (l := ws.stream) (b := lookupByte tNodeEnd (ws.stack - 1)) (lookupByte_ne (by decide))
    unfold Z
    simp only [hz]
    exact ⟨h.1, fun _ => Nat.zero_le _⟩
  · exact h

theorem Z.add {n : Nat} {ws : WS} (h : Z n ws) {bs : List UInt8} (hn : n + bs.length < 48) :
    Z (n + bs.length) (ws.add bs) := by
  have hf := h.flush
  have hs := WS.flush_stack ws
  unfold WS.add
  generalize ws.flush = d at *
  obtain ⟨h1, h2⟩ := hf
  have h2 := h2 hs
  unfold Z
  simp only
  rw [zscan_append]
  rcases hp : zscan d.stream with ⟨k, b⟩
  rw [hp] at h1 h2
  simp only at h1 h2
  subst h1
  have := zfold_bound bs k (by omega)
  exact ⟨this.2, fun _ => by omega⟩

theorem Z.add_nz {n : Nat} {ws : WS} (h : Z n ws) {b : UInt8} (hb : b ≠ 0) : Z 0 (ws.add [b]) := by
  have hf := h.flush
  unfold WS.add
  generalize ws.flush = d at *
  unfold Z
  simp only [zscan_nz hb]
  exact ⟨hf.1, fun _ => Nat.le_refl _⟩

theorem Z.nodeEnd {n : Nat} {ws : WS} (h : Z n ws) : Z 0 ws.nodeEnd := by
  unfold WS.nodeEnd
  simp only
  split
  · exact ⟨h.1, fun e => by simp at e⟩
  · unfold WS.flush
    rw [if_pos (by simp)]
    unfold Z
    simp only [zscan_nz (l := ws.stream) (b := lookupByte tNodeEnd (ws.stack + 1 - 1)) (lookupByte_ne (by decide))]
    exact ⟨h.1, fun _ => Nat.le_refl _⟩

theorem serVars_Z (vs : List UInt32) : ∀ (i : Nat) (ds : List UInt32) (ws : WS), i ≠ 0 → i + ds.length ≤ 32 →
    Z 8 ws → Z 8 (serVars ws i vs ds) := by
  induction vs with
  | nil => intro i ds ws _ _ h; simpa [serVars] using h
  | cons v vs ih =>
    intro i ds ws hi hl h
    cases ds with
    | nil => simpa [serVars] using h
    | cons d ds =>
      simp only [serVars]
      simp at hl
      refine ih (i + 1) ds _ (by omega) (by omega) ?_
      split
      · have : lookupByte tVariable i ≠ 0 := by
          intro e
          have := lookupByte_index tVariable i
          rw [e] at this
          simp at this; omega
        exact ((h.add_nz this).add (bs := le32 v) (by simp [le32])).mono (by simp [le32])
      · exact h

theorem serVars_Z0 (vs ds : List UInt32) (ws : WS) (hl : ds.length ≤ 32)
    (h : Z 3 ws) : Z 8 (serVars ws 0 vs ds) := by
  match vs, ds with
  | [], _ => simp only [serVars]; exact h.mono (by omega)
  | _ :: _, [] => simp only [serVars]; exact h.mono (by omega)
  | v :: vs, d :: ds =>
    simp only [serVars]
    simp at hl
    refine serVars_Z vs _ _ _ (by omega) (by omega) ?_
    split
    · rw [WS.addLookup]
      exact (((h.add (bs := [lookupByte tVariable 0]) (by simp)).add (bs := le32 v) (by simp [le32])).mono (by simp [le32]))
    · exact h.mono (by omega)

/-- Serialising a node keeps the zero-run invariant. -/
def ZI (rec : Nat → List Nat → St → SR) : Prop :=
  ∀ ptr deps st st', rec ptr deps st = .done true st' → Z 2 st.ws → Z 2 st'.ws

theorem serLookups_Z {reg : Reg} {fixUp : Bool} {rec : Nat → List Nat → St → SR} (hrec : ZI rec) (ptr : Nat)
    (deps : List Nat) : ∀ (ks : List Kind) (i : Nat) (st st' : St),
    serLookups reg fixUp rec ptr deps i ks st = .done true st' → ks ≠ [] → Z 2 st.ws → Z 2 st'.ws := by
  intro ks
  induction ks with
  | nil => intro i st st' _ h; exact absurd rfl h
  | cons k ks ih =>
    intro i st st' h _ hz
    simp only [serLookups] at h
    split at h
    · simp at h
    · split at h
      · simp at h
      · simp at h
      · split at h
        · simp at h
        · simp at h
        · split at h
          · rename_i st1 hs1
            have h1 := hrec _ _ _ _ hs1 hz
            by_cases hk : ks = []
            · subst hk; simp [serLookups] at h; rw [← h]; exact h1
            · exact ih _ _ _ h hk h1
          · rename_i hx
            exact absurd h (hx st')

theorem serHybrids_Z {reg : Reg} {fixUp : Bool} {rec : Nat → List Nat → St → SR} (hrec : ZI rec) (ptr : Nat)
    (deps : List Nat) : ∀ (ds : List UInt32) (i : Nat) (st st' : St),
    serHybrids reg fixUp rec ptr deps i ds st = .done true st' → Z 8 st.ws → Z 8 st'.ws := by
  intro ds
  induction ds with
  | nil => intro i st st' h hz; simp [serHybrids] at h; rw [← h]; exact hz
  | cons d ds ih =>
    intro i st st' h hz
    simp only [serHybrids] at h
    split at h
    · simp at h
    · split at h
      · simp at h
      · refine ih _ _ _ h ?_
        simp only
        split
        · exact hz
        · rename_i v _ _
          exact (((hz.add_nz (b := lookupByte tHybridVariable i) (lookupByte_ne (by decide))).add (bs := le32 v)
            (by simp [le32])).mono (by simp [le32]))
      · split at h
        · simp at h
        · simp at h
        · split at h
          · rename_i st1 hs1
            have h1 := hrec _ _ _ _ hs1
              ((hz.add_nz (b := lookupByte tHybridLookup i) (lookupByte_ne (by decide))).mono (by omega))
            exact ih _ _ _ h (h1.mono (by omega))
          · rename_i hx
            exact absurd h (hx st')

theorem ser_Z {reg : Reg} (hreg : RegOK reg) (fixUp : Bool) : ∀ fuel, ZI (ser reg fixUp fuel) := by
  intro fuel
  induction fuel with
  | zero => intro ptr deps st st' h; simp [ser] at h
  | succ fuel ih =>
    intro ptr deps st st' h hz
    rw [ser] at h
    split at h
    · simp at h
    · rename_i nd hnd
      split at h
      · simp at h
      · rename_i id hid
        split at h
        · simp at h
        · rename_i m hm
          have hmem : m ∈ reg := List.mem_of_getElem? hm
          split at h
          · simp at h
          · rename_i hsz
            simp only at h
            have hws : (if fixUp = true then { st with arena := st.arena.set ptr (cutLoops (if fixUp = true then
                ptr :: deps else deps) nd) } else st).ws = st.ws := by split <;> rfl
            split at h
            · rename_i r hr
              simp at h
              rw [← h]
              simp only [hws]
              have := (hz.add_nz (b := 255) (by decide)).add (bs := le16 r) (by simp [le16])
              exact this.mono (by simp [le16])
            · have h0 : Z 8 (serVars (st.ws.add [UInt8.ofNat id]) 0 nd.vars m.vars) := by
                refine serVars_Z0 _ _ _ (hreg.vars m hmem) ?_
                exact hz.add (by simp)
              split at h
              · rename_i st1 hl
                split at h
                · rename_i st2 hh
                  simp at h
                  rw [← h]
                  simp only
                  have h1 : Z 8 st1.ws := by
                    by_cases hk : m.lookups = []
                    · rw [hk] at hl
                      simp [serLookups] at hl
                      rw [← hl]
                      simp only [hws]; exact h0
                    · have := serLookups_Z ih ptr _ m.lookups 0 _ st1 hl hk (by
                        simp only [hws]
                        rw [if_pos (by simpa using hk)]
                        exact (h0.add_nz (b := lookupByte tLookup m.lookups.length)
                          (lookupByte_ne (by decide))).mono (by omega))
                      exact this.mono (by omega)
                  exact (serHybrids_Z ih ptr _ m.hybrids 0 st1 st2 hh h1).nodeEnd.mono (by omega)
                · rename_i hx; exact absurd h (hx st')
              · rename_i hx; exact absurd h (hx st')

/-! ### Size -/

/-- Bytes written, counting a pending node end. -/
def wl (ws : WS) : Nat := ws.flush.stream.length

theorem wl_add (ws : WS) (bs : List UInt8) : wl (ws.add bs) = wl ws + bs.length := by
  have h : (ws.add bs).flush = ws.add bs := WS.flush_of_zero (WS.add_stack ws bs)
  unfold wl; rw [h]; simp [WS.add]

theorem wl_nodeEnd (ws : WS) : wl ws.nodeEnd ≤ wl ws + 1 := by
  unfold wl WS.nodeEnd
  simp only
  split
  · unfold WS.flush; simp; split <;> simp
  · rw [WS.flush_flush]
    unfold WS.flush; simp; split <;> simp

theorem wl_nodeEnd_ge (ws : WS) : wl ws ≤ wl ws.nodeEnd ∧ ws.stream.length + 1 ≤ wl ws.nodeEnd ∧
    ws.stream.length ≤ ws.nodeEnd.stream.length := by
  unfold wl WS.nodeEnd
  simp only
  split
  · unfold WS.flush; simp; split <;> simp
  · rw [WS.flush_flush]
    unfold WS.flush; simp; split <;> simp

theorem sl_add (ws : WS) (bs : List UInt8) : ws.stream.length + bs.length ≤ (ws.add bs).stream.length := by
  unfold WS.add WS.flush
  split <;> simp

theorem sl_serVars (vs : List UInt32) : ∀ (i : Nat) (ds : List UInt32) (ws : WS),
    ws.stream.length ≤ (serVars ws i vs ds).stream.length := by
  induction vs with
  | nil => intro i ds ws; simp [serVars]
  | cons v vs ih =>
    intro i ds ws
    cases ds with
    | nil => simp [serVars]
    | cons d ds =>
      simp only [serVars]
      refine Nat.le_trans ?_ (ih _ _ _)
      split
      · have h1 := sl_add (ws.addLookup tVariable i) (le32 v)
        have h2 := sl_add ws [lookupByte tVariable i]
        rw [WS.addLookup] at h1 ⊢
        omega
      · exact Nat.le_refl _

theorem wl_serVars (vs : List UInt32) : ∀ (i : Nat) (ds : List UInt32) (ws : WS),
    wl ws ≤ wl (serVars ws i vs ds) ∧ wl (serVars ws i vs ds) ≤ wl ws + 5 * ds.length := by
  induction vs with
  | nil => intro i ds ws; simp [serVars]
  | cons v vs ih =>
    intro i ds ws
    cases ds with
    | nil => simp [serVars]
    | cons d ds =>
      simp only [serVars, List.length_cons]
      obtain ⟨h1, h2⟩ := ih (i + 1) ds (if v ≠ d then (ws.addLookup tVariable i).add (le32 v) else ws)
      by_cases hv : v ≠ d
      · rw [if_pos hv, WS.addLookup] at h1 h2 ⊢
        rw [wl_add, wl_add, le32_len] at h1 h2
        simp only [List.length_singleton] at h1 h2
        omega
      · rw [if_neg hv] at h1 h2 ⊢
        omega

/-- Size bound: at most 512 bytes per newly written node plus 3. -/
structure LQ (A : Arena) (S : Nat → Prop) (k : Nat) (st st' : St) : Prop where
  arena : st'.arena = A
  ge : wl st.ws ≤ wl st'.ws
  sl : st.ws.stream.length ≤ st'.ws.stream.length
  le : wl st'.ws + 512 * st.refs.length ≤ wl st.ws + 512 * st'.refs.length + k
  refs : ∃ new, st'.refs = new ++ st.refs ∧ ∀ q ∈ new, S q.1

def LI (A : Arena) (rec : Nat → List Nat → St → SR) : Prop :=
  ∀ ptr deps st st', st.arena = A → (∀ p, ReflTransGen (LinkND A) ptr p → ¬ TransGen (LinkND A) p p) →
    rec ptr deps st = .done true st' → LQ A (ReflTransGen (LinkND A) ptr) 3 st st' ∧ wl st.ws + 2 ≤ wl st'.ws

theorem LQ.trans {A : Arena} {S T : Nat → Prop} {k l : Nat} {a b c : St} (h1 : LQ A S k a b) (h2 : LQ A T l b c)
    (hS : ∀ q, S q → T q) : LQ A T (k + l) a c where
  arena := h2.arena
  ge := Nat.le_trans h1.ge h2.ge
  sl := Nat.le_trans h1.sl h2.sl
  le := by have := h1.le; have := h2.le; omega
  refs := by
    obtain ⟨n1, e1, f1⟩ := h1.refs
    obtain ⟨n2, e2, f2⟩ := h2.refs
    refine ⟨n2 ++ n1, by rw [e2, e1, List.append_assoc], ?_⟩
    intro q hq
    rcases List.mem_append.mp hq with h | h
    · exact f2 q h
    · exact hS _ (f1 q h)

theorem serLookups_L {reg : Reg} {A : Arena} {rec : Nat → List Nat → St → SR} (hrec : LI A rec) (ptr : Nat)
    (hac : ∀ p, ReflTransGen (LinkND A) ptr p → ¬ TransGen (LinkND A) p p)
    (deps : List Nat) : ∀ (ks : List Kind) (i : Nat) (st st' : St), st.arena = A →
    serLookups reg false rec ptr deps i ks st = .done true st' →
    LQ A (TransGen (LinkND A) ptr) (3 * ks.length) st st' := by
  intro ks
  induction ks with
  | nil =>
    intro i st st' ha h
    simp [serLookups] at h; subst h
    exact ⟨ha, by simp, by simp, by simp, [], by simp⟩
  | cons k ks ih =>
    intro i st st' ha h
    simp only [serLookups, ha, Bool.false_eq_true, if_false] at h
    split at h
    · simp at h
    · rename_i nd hnd
      split at h
      · simp at h
      · simp at h
      · rename_i child hch
        have hlink : LinkND A ptr child := linkND_lookup hnd (List.mem_of_getElem? hch)
        split at h
        · rename_i st1 hs1
          have h1 := (hrec _ _ _ _ ha (fun p hp => hac p (hp.head hlink)) hs1).1
          have h2 := ih _ _ _ h1.arena h
          have h1' : LQ A (TransGen (LinkND A) ptr) 3 st st1 :=
            ⟨h1.arena, h1.ge, h1.sl, h1.le, h1.refs.imp fun n hn => ⟨hn.1, fun q hq => TransGen.head' hlink (hn.2 q hq)⟩⟩
          have := h1'.trans h2 (fun q hq => hq)
          rw [List.length_cons, show 3 * (ks.length + 1) = 3 + 3 * ks.length by omega]
          exact this
        · rename_i hx
          exact absurd h (hx st')

theorem serHybrids_L {reg : Reg} {A : Arena} {rec : Nat → List Nat → St → SR} (hrec : LI A rec) (ptr : Nat)
    (hac : ∀ p, ReflTransGen (LinkND A) ptr p → ¬ TransGen (LinkND A) p p)
    (deps : List Nat) : ∀ (ds : List UInt32) (i : Nat) (st st' : St), st.arena = A →
    serHybrids reg false rec ptr deps i ds st = .done true st' →
    LQ A (TransGen (LinkND A) ptr) (5 * ds.length) st st' := by
  intro ds
  induction ds with
  | nil =>
    intro i st st' ha h
    simp [serHybrids] at h; subst h
    exact ⟨ha, by simp, by simp, by simp, [], by simp⟩
  | cons d ds ih =>
    intro i st st' ha h
    simp only [serHybrids, ha, Bool.false_eq_true, if_false] at h
    rw [List.length_cons, show 5 * (ds.length + 1) = 5 + 5 * ds.length by omega]
    split at h
    · simp at h
    · rename_i nd hnd
      split at h
      · simp at h
      · rename_i v hv
        have h2 := ih _ _ _ (by rfl) h
        refine LQ.trans (S := TransGen (LinkND A) ptr) (b := { arena := A, ws := if feq v d then st.ws else (st.ws.addLookup tHybridVariable i).add (le32 v), refs := st.refs })
          ⟨rfl, ?_, ?_, ?_, [], by simp, by simp⟩ h2 (fun q hq => hq)
        · simp only; split
          · exact Nat.le_refl _
          · rw [WS.addLookup, wl_add, wl_add]; omega
        · simp only; split
          · exact Nat.le_refl _
          · have h1 := sl_add (st.ws.addLookup tHybridVariable i) (le32 v)
            have h2 := sl_add st.ws [lookupByte tHybridVariable i]
            rw [WS.addLookup] at h1 ⊢
            omega
        · simp only; split
          · omega
          · rw [WS.addLookup, wl_add, wl_add, le32_len]; simp only [List.length_singleton]; omega
      · rename_i child v hch
        have hlink : LinkND A ptr child := linkND_hybrid hnd (List.mem_of_getElem? hch)
        split at h
        · rename_i st1 hs1
          have h1 := (hrec _ _ _ _ rfl (fun p hp => hac p (hp.head hlink)) hs1).1
          have h2 := ih _ _ _ h1.arena h
          refine LQ.trans (S := TransGen (LinkND A) ptr) (b := st1) ⟨h1.arena, ?_, ?_, ?_, ?_⟩ h2 (fun q hq => hq)
          · have := h1.ge; simp only [WS.addLookup, wl_add] at this; omega
          · have h3 := h1.sl
            have h4 := sl_add st.ws [lookupByte tHybridLookup i]
            simp only [WS.addLookup] at h3
            omega
          · have := h1.le; simp only [WS.addLookup, wl_add, List.length_singleton] at this; omega
          · exact h1.refs.imp fun n hn => ⟨hn.1, fun q hq => TransGen.head' hlink (hn.2 q hq)⟩
        · rename_i hx
          exact absurd h (hx st')

theorem emplace_none {refs : List (Nat × Nat)} {p : Nat} (h : refs.lookup p = none) :
    emplace refs p = (p, refs.length % 65536) :: refs := by simp [emplace, h]

theorem ser_L {reg : Reg} (hreg : RegOK reg) (A : Arena) : ∀ fuel, LI A (ser reg false fuel) := by
  intro fuel
  induction fuel with
  | zero => intro ptr deps st st' _ _ h; simp [ser] at h
  | succ fuel ih =>
    intro ptr deps st st' ha hac h
    rw [ser] at h
    simp only [ha, Bool.false_eq_true, if_false] at h
    split at h
    · simp at h
    · rename_i nd hnd
      split at h
      · simp at h
      · rename_i id hid
        split at h
        · simp at h
        · rename_i m hm
          have hmem : m ∈ reg := List.mem_of_getElem? hm
          split at h
          · simp at h
          · rename_i hsz
            split at h
            · rename_i r hr
              simp at h
              rw [← h]
              refine ⟨⟨rfl, ?_, ?_, ?_, [], by simp, by simp⟩, ?_⟩
              · simp only [wl_add]; omega
              · have h1 := sl_add (st.ws.add [255]) (le16 r)
                have h2 := sl_add st.ws [255]
                simp only; omega
              · simp only [wl_add, le16, List.length_cons, List.length_nil]
                omega
              · simp only [wl_add, le16, List.length_cons, List.length_nil]
                omega
            · rename_i hr
              have hv := wl_serVars nd.vars 0 m.vars (st.ws.add [UInt8.ofNat id])
              rw [wl_add, List.length_singleton] at hv
              split at h
              · rename_i st1 hl
                have h1 := serLookups_L ih ptr hac _ m.lookups 0 _ st1 (by rfl) hl
                split at h
                · rename_i st2 hh
                  have h2 := serHybrids_L ih ptr hac _ m.hybrids 0 st1 st2 h1.arena hh
                  have h12 := h1.trans h2 (fun q hq => hq)
                  obtain ⟨new, e, hnew⟩ := h12.refs
                  simp only at e
                  have hnone : st2.refs.lookup ptr = none := by
                    rw [e]
                    refine lookup_append_none ?_ hr
                    intro q hq eq
                    have := hnew q hq
                    rw [eq] at this
                    exact hac ptr .refl this
                  rw [emplace_none hnone] at h
                  simp only [SR.done.injEq, true_and] at h
                  have hb1 := hreg.vars m hmem
                  have hb2 := hreg.lookups m hmem
                  have hb3 := hreg.hybrids m hmem
                  have hle := h12.le
                  have hge := h12.ge
                  have hsl := h12.sl
                  have hne := wl_nodeEnd st2.ws
                  have hng := wl_nodeEnd_ge st2.ws
                  have hsv := sl_serVars nd.vars 0 m.vars (st.ws.add [UInt8.ofNat id])
                  have hid1 : (st.ws.add [UInt8.ofNat id]).stream.length = wl st.ws + 1 := by
                    simp [WS.add, wl]
                  have hsa := sl_add st.ws [UInt8.ofNat id]
                  have hX : ∃ W, (if m.lookups.length ≠ 0 then (serVars (st.ws.add [UInt8.ofNat id]) 0 nd.vars m.vars).addLookup
                      tLookup m.lookups.length else serVars (st.ws.add [UInt8.ofNat id]) 0 nd.vars m.vars) = W ∧
                      wl W ≤ wl st.ws + 1 + 5 * m.vars.length + 1 ∧ wl st.ws + 1 ≤ wl W ∧
                      wl st.ws + 1 ≤ W.stream.length := by
                    refine ⟨_, rfl, ?_⟩
                    have := sl_add (serVars (st.ws.add [UInt8.ofNat id]) 0 nd.vars m.vars) [lookupByte tLookup m.lookups.length]
                    split
                    · rw [WS.addLookup, wl_add, List.length_singleton]; omega
                    · omega
                  obtain ⟨W, hW, hW1, hW2, hW3⟩ := hX
                  rw [hW] at hle hge hsl
                  simp only at hle hge hsl
                  subst h
                  refine ⟨⟨h12.arena, ?_, ?_, ?_, (ptr, st2.refs.length % 65536) :: new, ?_, ?_⟩, ?_⟩
                  · simp only; omega
                  · simp only [List.length_singleton] at *; omega
                  · simp only [List.length_cons]; omega
                  · simp only [e]; rfl
                  · intro q hq
                    rcases List.mem_cons.mp hq with e1 | e1
                    · rw [e1]
                    · exact (hnew q e1).to_reflTransGen
                  · simp only; omega
                · rename_i hx; exact absurd h (hx st')
              · rename_i hx; exact absurd h (hx st')

end FastNoise.RT
