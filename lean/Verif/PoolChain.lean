import Verif.PoolLemmas

/-! The pool list: every pool not yet given back is on it, and who may hold a pointer to what. -/

namespace FastNoise.Pool

variable {T : Nat}

/-- The list of pools met when following `nx` from `o`. -/
def Path (nx : Nat → Option Nat) : Option Nat → List Nat → Prop
  | o, [] => o = none
  | o, p :: L => o = some p ∧ Path nx (nx p) L

theorem Path.congr {nx nx' : Nat → Option Nat} {o : Option Nat} {L : List Nat} (h : Path nx o L) (e : ∀ p ∈ L, nx' p = nx p) : Path nx' o L := by
  induction L generalizing o with
  | nil => exact h
  | cons p L ih =>
    refine ⟨h.1, ?_⟩
    rw [e p (by simp)]
    exact ih h.2 fun q hq => e q (by simp [hq])

theorem Path.split {nx : Nat → Option Nat} {o : Option Nat} {A B : List Nat} {p : Nat} (h : Path nx o (A ++ p :: B)) : Path nx (nx p) B := by
  induction A generalizing o with
  | nil => exact h.2
  | cons a A ih => exact ih h.2

theorem Path.mem_next {nx : Nat → Option Nat} {o : Option Nat} {L : List Nat} {p q : Nat} (h : Path nx o L) (hp : p ∈ L) (hq : nx p = some q) :
    ∃ A B, L = A ++ p :: q :: B := by
  obtain ⟨A, B, rfl⟩ := List.append_of_mem hp
  have := h.split
  rw [hq] at this
  cases B with
  | nil => cases this
  | cons x B =>
    have e := this.1
    cases e
    exact ⟨A, B, rfl⟩

theorem Path.snoc {nx : Nat → Option Nat} {o : Option Nat} {L : List Nat} {l n : Nat} (h : Path nx o (L ++ [l]))
    (hnd : (L ++ [l]).Nodup) (hn : n ∉ L ++ [l]) (nx' : Nat → Option Nat) (e : ∀ p ∈ L, nx' p = nx p) (hl : nx' l = some n) (hn' : nx' n = none) :
    Path nx' o (L ++ [l] ++ [n]) := by
  induction L generalizing o with
  | nil =>
    refine ⟨h.1, ?_⟩
    rw [hl]
    exact ⟨rfl, hn'⟩
  | cons p L ih =>
    refine ⟨h.1, ?_⟩
    rw [e p (by simp)]
    refine ih h.2 (List.nodup_cons.mp hnd).2 ?_ fun q hq => e q (by simp [hq])
    simp only [List.cons_append, List.mem_cons, not_or] at hn
    exact hn.2

theorem Path.remove {nx : Nat → Option Nat} {o : Option Nat} {A B : List Nat} {p q : Nat} (h : Path nx o (A ++ p :: q :: B))
    (nx' : Nat → Option Nat) (e : ∀ r ∈ A ++ B, nx' r = nx r) (hp : nx' p = nx q) : Path nx' o (A ++ p :: B) := by
  induction A generalizing o with
  | nil =>
    refine ⟨h.1, ?_⟩
    rw [hp]
    exact h.2.2.congr fun r hr => e r (by simp [hr])
  | cons a A ih =>
    refine ⟨h.1, ?_⟩
    rw [e a (by simp)]
    exact ih h.2 fun r hr => e r (by simp only [List.cons_append, List.mem_cons, hr, or_true])

/-- `p` is on the list, and `q` is `p` or comes later. -/
def Before (L : List Nat) (p q : Nat) : Prop := ∃ A B, L = A ++ p :: B ∧ q ∈ p :: B

def nx (s : St T) (p : Nat) : Option Nat := (s.pools p).nxt

structure Chain (s : St T) (L : List Nat) : Prop where
  path : Path (nx s) s.head L
  nodup : L.Nodup
  alive : ∀ p, (s.pools p).alive = true ↔ p ∈ L

def pcL (s : St T) (L : List Nat) : Pc → Prop
  | .scan _ _ (some p) _ => p < s.count
  | .cas _ _ p _ _ => p < s.count
  | .freeSub _ p => p < s.count
  | .freeAt a cur => ∃ p, cur = some p ∧ p < s.count ∧ (p ∈ L → ∀ b ∈ s.blocks, b.addr = a → Before L p b.pool)
  | .rm0 => L ≠ []
  | .rmLoop p _ => p < s.count
  | .rmLock p q => p < s.count ∧ q < s.count ∧ (p ∈ L → q ∈ L → nx s p = some q)
  | _ => True

structure ChainInv (s : St T) (L : List Nat) : Prop where
  chain : Chain s L
  pcs : ∀ t, pcL s L (s.pc t)

theorem pcL_mono {s s' : St T} {L L' : List Nat} {c : Pc} (h : pcL s L c) (hcount : s.count ≤ s'.count)
    (hL : ∀ p, p < s.count → p ∈ L' → p ∈ L) (hblk : ∀ a, c.freeing = some a → ∀ b ∈ s'.blocks, b.addr = a → b ∈ s.blocks)
    (hbef : ∀ p b, p < s.count → b ∈ s'.blocks → p ∈ L' → Before L p b.pool → Before L' p b.pool)
    (hnx : ∀ p q, p < s.count → q < s.count → p ∈ L' → q ∈ L' → nx s p = some q → nx s' p = some q)
    (hne : L ≠ [] → L' ≠ []) : pcL s' L' c := by
  cases c with
  | scan size align cur locked => cases cur <;> simp only [pcL] at h ⊢; omega
  | cas => simp only [pcL] at h ⊢; omega
  | freeSub => simp only [pcL] at h ⊢; omega
  | freeAt a cur =>
    obtain ⟨p, rfl, hp, hb⟩ := h
    refine ⟨p, rfl, by omega, fun hpl b hbm hba => ?_⟩
    exact hbef p b hp hbm hpl (hb (hL p hp hpl) b (hblk a rfl b hbm hba) hba)
  | rm0 => exact hne h
  | rmLoop => simp only [pcL] at h ⊢; omega
  | rmLock p q =>
    obtain ⟨hp, hq, hn⟩ := h
    exact ⟨by omega, by omega, fun h1 h2 => hnx p q hp hq h1 h2 (hn (hL p hp h1) (hL q hq h2))⟩
  | idle => trivial

/-- Nothing but the blocks and program counters changes. -/
theorem chain_keep {R : Nat} {s s' : St T} {L : List Nat} (hI : Inv R s) (hI' : Inv R s') (hC : ChainInv s L) (t : Fin T) (c : Pc)
    (hp : ∀ p, (s'.pools p).nxt = (s.pools p).nxt ∧ (s'.pools p).alive = (s.pools p).alive) (hh : s'.head = s.head) (hcount : s'.count = s.count)
    (hb : (∃ b, s'.blocks = b :: s.blocks) ∨ (∀ b ∈ s'.blocks, b ∈ s.blocks)) (hpc : s'.pc = upd s.pc t c) (hc : pcL s' L c) : ChainInv s' L := by
  refine ⟨⟨?_, hC.chain.nodup, fun p => by rw [(hp p).2]; exact hC.chain.alive p⟩, ?_⟩
  · rw [hh]; exact hC.chain.path.congr fun p _ => (hp p).1
  · intro u
    rw [hpc]
    by_cases e : u = t
    · subst e; rw [upd_self]; exact hc
    · rw [upd_ne _ _ e]
      refine pcL_mono (hC.pcs u) (by omega) (fun _ _ h => h) ?_ (fun _ _ _ _ _ h => h) (fun p q _ _ _ _ h => by unfold nx; rw [(hp p).1]; exact h) id
      intro a ha b hbm hba
      rcases hb with ⟨b', hb'⟩ | hb
      · rw [hb'] at hbm
        rcases List.mem_cons.mp hbm with rfl | hbm
        · exfalso
          have hd := hI'.distinct
          rw [hb'] at hd
          have hok := hI.pc u
          have : ∃ x ∈ s.blocks, x.addr = a := by
            revert ha hok
            cases s.pc u <;> simp only [Pc.freeing, pcOK, reduceCtorEq, false_implies, Option.some.injEq]
            · rintro rfl h; exact h
            · rintro rfl ⟨x, h1, h2, _⟩; exact ⟨x, h1, h2⟩
          obtain ⟨x, hx, hxa⟩ := this
          exact (List.pairwise_cons.mp hd).1 x hx (by rw [hba, hxa])
        · exact hbm
      · exact hb b hbm

theorem chain_setPc {R : Nat} {s : St T} {L : List Nat} (hI : Inv R s) (hI' : Inv R (s.setPc t c)) (hC : ChainInv s L)
    (hc : pcL s L c) : ChainInv (s.setPc t c) L :=
  chain_keep hI hI' hC t c (fun _ => ⟨rfl, rfl⟩) rfl rfl (Or.inr fun _ h => h) rfl
    (pcL_mono hc (Nat.le_refl _) (fun _ _ h => h) (fun _ _ _ h _ => h) (fun _ _ _ _ _ h => h) (fun _ _ _ _ _ _ h => h) id)

theorem Before.append {L : List Nat} {p q : Nat} (h : Before L p q) (M : List Nat) : Before (L ++ M) p q := by
  obtain ⟨A, B, rfl, hq⟩ := h
  refine ⟨A, B ++ M, by simp, ?_⟩
  rcases List.mem_cons.mp hq with rfl | hq
  · simp
  · simp [hq]

theorem Before.head {p q : Nat} {L : List Nat} (h : q ∈ p :: L) : Before (p :: L) p q := ⟨[], L, rfl, h⟩

theorem Before.erase {L : List Nat} {p q r : Nat} (h : Before L p q) (h1 : p ≠ r) (h2 : q ≠ r) : Before (L.filter (· ≠ r)) p q := by
  obtain ⟨A, B, rfl, hq⟩ := h
  refine ⟨A.filter (· ≠ r), B.filter (· ≠ r), ?_, ?_⟩
  · rw [List.filter_append, List.filter_cons, if_pos (by simpa using h1)]
  · rcases List.mem_cons.mp hq with rfl | hq
    · simp
    · simp [hq, h2]

theorem lastPool_last {s : St T} {fuel h : Nat} {L : List Nat} {l : Nat} (hp : Path (nx s) (some h) (L ++ [l])) (hlen : L.length < fuel)
    (ha : ∀ p ∈ L ++ [l], (s.pools p).alive = true) : lastPool s fuel h = some l := by
  induction L generalizing h fuel with
  | nil =>
    obtain ⟨e, h2⟩ := hp
    cases e
    cases fuel with
    | zero => omega
    | succ fuel =>
      have h2 : (s.pools l).nxt = none := h2
      simp only [lastPool, ha l (by simp), if_true, h2]
  | cons p L ih =>
    obtain ⟨e, h2⟩ := hp
    cases e
    cases fuel with
    | zero => omega
    | succ fuel =>
      have hal := ha p (by simp)
      have hne : ∃ q, (s.pools p).nxt = some q := by
        cases L with
        | nil => exact ⟨l, h2.1⟩
        | cons x L => exact ⟨x, h2.1⟩
      obtain ⟨q, hq⟩ := hne
      simp only [lastPool, hal, if_true, hq]
      refine ih ?_ (by simp only [List.length_cons] at hlen; omega) fun x hx => ha x (by simp only [List.cons_append, List.mem_cons, hx, or_true])
      have : nx s p = some q := hq
      rw [this] at h2
      exact h2

theorem nodup_length {L : List Nat} {n : Nat} (h : L.Nodup) (hb : ∀ p ∈ L, p < n) : L.length ≤ n := by
  induction n generalizing L with
  | zero =>
    cases L with
    | nil => simp
    | cons a L => exact absurd (hb a (by simp)) (Nat.not_lt_zero _)
  | succ n ih =>
    have h1 := ih (L := L.erase n) (h.erase n) fun p hp => by
      have := hb p (List.mem_of_mem_erase hp)
      have h2 : p ≠ n := by rintro rfl; exact h.not_mem_erase hp
      omega
    rw [List.length_erase] at h1
    split at h1 <;> omega

theorem linkPool_chain {R : Nat} {s : St T} {L : List Nat} (hI : Inv R s) (hC : ChainInv s L) (t : Fin T) {p : Pool} {bs : List Block}
    (hpn : p.nxt = none) (hpa : p.alive = true) :
    ∃ s', linkPool s t p bs = some s' ∧ ((∀ q ∈ s'.blocks, q.pool ≠ s.count → q ∈ s.blocks) → (∀ b ∈ s.blocks, b.pool ≠ s.count) →
      (∀ u b, b ∈ s'.blocks → b.pool = s.count → ∀ a, (s.pc u).freeing = some a → b.addr ≠ a) → ChainInv s' (L ++ [s.count])) := by
  have hlt : ∀ p ∈ L, p < s.count := fun p hp => (hI.pool p ((hC.chain.alive p).mpr hp)).lt
  have hnew : s.count ∉ L := fun h => Nat.lt_irrefl _ (hlt _ h)
  have hnd : (L ++ [s.count]).Nodup := by
    rw [List.nodup_append]
    exact ⟨hC.chain.nodup, by simp, fun a ha b hb e => by
      simp at hb; subst hb; subst e; exact hnew ha⟩
  have key : ∀ s' : St T, Path (nx s') s'.head (L ++ [s.count]) → s'.count = s.count + 1 → s'.pc = upd s.pc t .idle →
      (∀ q, q ≠ s.count → (s'.pools q).alive = (s.pools q).alive) → (s'.pools s.count).alive = true →
      (∀ x y, x < s.count → nx s x = some y → nx s' x = some y) →
      (∀ q ∈ s'.blocks, q.pool ≠ s.count → q ∈ s.blocks) → (∀ b ∈ s.blocks, b.pool ≠ s.count) →
      (∀ u b, b ∈ s'.blocks → b.pool = s.count → ∀ a, (s.pc u).freeing = some a → b.addr ≠ a) → ChainInv s' (L ++ [s.count]) := by
    intro s' h1 h2 h3 h4 h5 h6 h7 h8 h9
    refine ⟨⟨h1, hnd, fun q => ?_⟩, fun u => ?_⟩
    · by_cases e : q = s.count
      · subst e; simp [h5]
      · rw [h4 q e, hC.chain.alive]; simp [e]
    · rw [h3]
      by_cases e : u = t
      · subst e; rw [upd_self]; trivial
      · rw [upd_ne _ _ e]
        refine pcL_mono (hC.pcs u) (by omega) ?_ ?_ (fun x b _ _ _ hx => hx.append _) (fun x y hx _ _ _ hn => h6 x y hx hn) (by simp)
        · intro x hx hxl
          rcases List.mem_append.mp hxl with h | h
          · exact h
          · simp at h; omega
        · intro a ha b hb hba
          by_cases e2 : b.pool = s.count
          · exact absurd hba (h9 u b hb e2 a ha)
          · exact h7 b hb e2
  cases hh : s.head with
  | none =>
    have hL : L = [] := by
      have := hC.chain.path
      rw [hh] at this
      cases L with
      | nil => rfl
      | cons a L => cases this.1
    subst hL
    refine ⟨_, by unfold linkPool; simp only [hh]; rfl, ?_⟩
    refine key _ ⟨rfl, ?_⟩ rfl rfl (fun q hq => by simp only [upd_ne _ _ hq]) (by simp only [upd_self]; exact hpa)
      (fun x y hx h => by unfold nx; simp only [upd_ne _ _ (Nat.ne_of_lt hx)]; exact h)
    simp only [nx, upd_self, Path, hpn]
  | some h =>
    have hLne : L ≠ [] := by
      rintro rfl
      have := hC.chain.path
      rw [hh] at this
      cases this
    obtain ⟨L0, l, rfl⟩ : ∃ L0 l, L = L0 ++ [l] := ⟨L.dropLast, L.getLast hLne, (List.dropLast_concat_getLast hLne).symm⟩
    have hlp : lastPool s (s.count + 1) h = some l := by
      refine lastPool_last (hh ▸ hC.chain.path) ?_ fun p hp => (hC.chain.alive p).mpr hp
      have := nodup_length hC.chain.nodup hlt
      simp at this; omega
    have hll : l ≠ s.count := Nat.ne_of_lt (hlt l (by simp))
    have hlnone : nx s l = none := by
      have := hC.chain.path.split (A := L0) (B := [])
      exact this
    refine ⟨_, by unfold linkPool; simp only [hh, hlp]; rfl, ?_⟩
    refine key _ ?_ rfl rfl ?_ ?_ ?_
    · show Path _ (some h) _
      refine Path.snoc (o := some h) (l := l) (nx := nx s) (hh ▸ hC.chain.path) hC.chain.nodup hnew _ ?_ ?_ ?_
      · intro x hx
        have h1 : x ≠ l := by
          rintro rfl
          have := hC.chain.nodup
          rw [List.nodup_append] at this
          exact this.2.2 x hx x (by simp) rfl
        have h2 : x ≠ s.count := Nat.ne_of_lt (hlt x (by simp [hx]))
        simp only [nx, St.setPool, upd_ne _ _ h1, upd_ne _ _ h2]
      · simp only [nx, St.setPool, upd_self]
      · simp only [nx, St.setPool, upd_ne _ _ (Ne.symm hll), upd_self, hpn]
    · intro q hq
      by_cases e : q = l
      · subst e; simp only [St.setPool, upd_self, upd_ne _ _ hq]
      · simp only [St.setPool, upd_ne _ _ e, upd_ne _ _ hq]
    · simp only [St.setPool, upd_ne _ _ (Ne.symm hll), upd_self, hpa]
    · intro x y hx h
      have h1 : x ≠ l := by rintro rfl; rw [hlnone] at h; cases h
      unfold nx
      simp only [St.setPool, upd_ne _ _ h1, upd_ne _ _ (Nat.ne_of_lt hx)]; exact h

theorem newPool_chain {R : Nat} {s : St T} {L : List Nat} (hI : Inv R s) (hC : ChainInv s L) (t : Fin T) {size align base : Nat} (hs : 2 ≤ size) (ha : 0 < align)
    (hR : size + align ≤ R) (hm : mallocOK s base) : ∃ s', newPool s t size align base = some s' ∧ ChainInv s' (L ++ [s.count]) := by
  obtain ⟨g1, g2⟩ := hI.cfg
  have hcap : max hdr s.newSize - hdr = s.newSize - hdr := by rw [Nat.max_eq_right (by omega)]
  obtain ⟨a, hsa⟩ := stdAlign_some (size := size) (ptr := base) (space := s.newSize - hdr) ha (by omega)
  obtain ⟨b1, b2, b3⟩ := stdAlign_spec ha hsa
  have htc := tryCompute_new (sz := s.newSize - hdr) (base := base) (by omega) hsa b3
  obtain ⟨s', h1, h2⟩ := linkPool_chain (p := { mkPool base (s.newSize - hdr) (s.newSize - hdr) with next := a + size - base, active := 1 })
    (bs := ⟨s.count, a, size, align⟩ :: s.blocks) hI hC t rfl rfl
  have h3 : newPool s t size align base = some s' := by
    have := newPool_eq (size := size) (align := align) (base := base) (s := s) t (newPoolSize_eq (by omega) g2) hcap rfl
    rw [← this]
    unfold newPoolAt
    rw [htc]
    exact h1
  have hbn : ∀ b ∈ s.blocks, b.pool ≠ s.count := fun b hb e => by
    have := (hI.pool _ (hI.block b hb).alive).lt; omega
  have hI' := inv_newPool hI t hs ha hR hm h3
  have hbl := (linkPool_facts h1).2.2.2.2.1
  refine ⟨s', h3, h2 ?_ hbn ?_⟩
  · intro b hb hne
    rw [hbl] at hb
    rcases List.mem_cons.mp hb with rfl | hb
    · exact absurd rfl hne
    · exact hb
  · intro u b hb hbp x hx hba
    rw [hbl] at hb
    rcases List.mem_cons.mp hb with rfl | hb
    · have hd := hI'.distinct
      rw [hbl] at hd
      have hok := hI.pc u
      have : ∃ y ∈ s.blocks, y.addr = x := by
        revert hx hok
        cases s.pc u <;> simp only [Pc.freeing, pcOK, reduceCtorEq, false_implies, Option.some.injEq]
        · rintro rfl h; exact h
        · rintro rfl ⟨y, h1, h2, _⟩; exact ⟨y, h1, h2⟩
      obtain ⟨y, hy, hyx⟩ := this
      exact (List.pairwise_cons.mp hd).1 y hy (by rw [hba, hyx])
    · exact hbn b hb hbp

/-- The pools a thread in the middle of a call has pointers to. -/
def Pc.ptrs : Pc → List Nat
  | .scan _ _ (some p) _ => [p]
  | .cas _ _ p _ _ => [p]
  | .freeAt _ (some p) => [p]
  | .freeSub _ p => [p]
  | .rmLoop p _ => [p]
  | .rmLock p q => [p, q]
  | _ => []

def Live (s : St T) (t : Fin T) : Prop := ∀ p ∈ (s.pc t).ptrs, (s.pools p).alive = true

theorem Chain.nxt_alive {s : St T} {L : List Nat} (hC : Chain s L) {p q : Nat} (hp : (s.pools p).alive = true) (hq : (s.pools p).nxt = some q) :
    (s.pools q).alive = true := by
  obtain ⟨A, B, e⟩ := hC.path.mem_next ((hC.alive p).mp hp) hq
  exact (hC.alive q).mpr (by rw [e]; simp)

theorem Chain.head_alive {s : St T} {L : List Nat} (hC : Chain s L) {p : Nat} (hp : s.head = some p) : (s.pools p).alive = true := by
  have := hC.path
  rw [hp] at this
  cases L with
  | nil => cases this
  | cons x L => cases this.1; exact (hC.alive p).mpr (by simp)

theorem Chain.head_before {s : St T} {L : List Nat} (hC : Chain s L) {q : Nat} (hq : (s.pools q).alive = true) :
    ∃ p, s.head = some p ∧ Before L p q := by
  have := hC.path
  have hm := (hC.alive q).mp hq
  cases L with
  | nil => cases hm
  | cons x L => exact ⟨x, this.1, Before.head hm⟩

theorem Chain.next_before {s : St T} {L : List Nat} (hC : Chain s L) {p q : Nat} (h : Before L p q) (hne : q ≠ p) :
    ∃ r, (s.pools p).nxt = some r ∧ Before L r q := by
  obtain ⟨A, B, rfl, hq⟩ := h
  have := hC.path.split
  rcases List.mem_cons.mp hq with rfl | hq
  · exact absurd rfl hne
  · cases B with
    | nil => cases hq
    | cons r B => exact ⟨r, this.1, A ++ [p], B, by simp, hq⟩

theorem Before.mem {L : List Nat} {p q : Nat} (h : Before L p q) : p ∈ L ∧ q ∈ L := by
  obtain ⟨A, B, rfl, hq⟩ := h
  exact ⟨by simp, List.mem_append.mpr (Or.inr hq)⟩

/-- A thread whose pointers are all good does not fail, and its pointers stay good. -/
theorem live_step {R : Nat} {s : St T} {L : List Nat} (hI : Inv R s) (hC : ChainInv s L) (t : Fin T) (a : Act) (hl : legal R s t a)
    (hv : Live s t) : ∃ s', exec s t a = some s' ∧ Live s' t := by
  have hd : ∀ (c : Pc), (∀ p ∈ c.ptrs, (s.pools p).alive = true) → Live (s.setPc t c) t := by
    intro c hc p hp
    simp only [St.setPc, upd_self] at hp ⊢
    exact hc p hp
  have hidle : ∀ s' : St T, s'.pc t = .idle → Live s' t := by
    intro s' h p hp
    rw [h] at hp; simp [Pc.ptrs] at hp
  have hhead : ∀ p, s.head = some p → (s.pools p).alive = true := fun p h => hC.chain.head_alive h
  cases a with
  | alloc size align =>
    refine ⟨_, rfl, hd _ ?_⟩
    intro p hp
    cases hh : s.head with
    | none => rw [hh] at hp; simp [Pc.ptrs] at hp
    | some q => rw [hh] at hp; simp only [Pc.ptrs, List.mem_singleton] at hp; subst hp; exact hhead p hh
  | free addr =>
    refine ⟨_, rfl, hd _ ?_⟩
    intro p hp
    cases hh : s.head with
    | none => rw [hh] at hp; simp [Pc.ptrs] at hp
    | some q => rw [hh] at hp; simp only [Pc.ptrs, List.mem_singleton] at hp; subst hp; exact hhead p hh
  | setPoolSize n => exact ⟨_, rfl, hidle _ hl.1⟩
  | run spur base =>
    obtain ⟨-, hm⟩ := hl
    have hpl := hC.pcs t
    have hpok := hI.pc t
    unfold Live at hv
    simp only [exec, run]
    cases hc : s.pc t with
    | idle => exact ⟨_, rfl, by unfold Live; rw [hc]; simp [Pc.ptrs]⟩
    | scan size align cur locked =>
      rw [hc] at hv hpl hpok
      cases cur with
      | some p =>
        have hp := hv p (by simp [Pc.ptrs])
        simp only [hp, if_true]
        exact ⟨_, rfl, hd _ (by simpa [Pc.ptrs] using hp)⟩
      | none =>
        cases locked with
        | true =>
          obtain ⟨s', h1, _⟩ := newPool_chain hI hC t hpok.1 hpok.2.1 hpok.2.2 hm
          refine ⟨s', h1, hidle _ ?_⟩
          obtain ⟨g1, g2⟩ := hI.cfg
          have hcap : max hdr s.newSize - hdr = s.newSize - hdr := by rw [Nat.max_eq_right (by omega)]
          have h2 := newPool_eq t (newPoolSize_eq (by omega) g2) hcap h1
          unfold newPoolAt at h2
          split at h2
          · rw [(linkPool_facts h2).2.2.2.2.2, upd_self]
          · rw [(linkPool_facts h2).2.2.2.2.2, upd_self]
        | false =>
          cases hlk : s.lock with
          | none =>
            refine ⟨_, rfl, ?_⟩
            intro p hp
            simp only [St.setPc, upd_self] at hp ⊢
            cases hh : s.head with
            | none => rw [hh] at hp; simp [Pc.ptrs] at hp
            | some q => rw [hh] at hp; simp only [Pc.ptrs, List.mem_singleton] at hp; subst hp; exact hhead p hh
          | some u => exact ⟨_, rfl, by unfold Live; rw [hc]; simp [Pc.ptrs]⟩
    | cas size align p e locked =>
      rw [hc] at hv
      have hp := hv p (by simp [Pc.ptrs])
      simp only [hp, if_true]
      split
      · refine ⟨_, rfl, hd _ ?_⟩
        intro q hq
        cases hn : (s.pools p).nxt with
        | none => rw [hn] at hq; simp [Pc.ptrs] at hq
        | some r => rw [hn] at hq; simp only [Pc.ptrs, List.mem_singleton] at hq; subst hq; exact hC.chain.nxt_alive hp hn
      · split
        · refine ⟨_, rfl, hidle _ ?_⟩
          cases locked <;> simp [St.unlockIf, St.setPc]
        · exact ⟨_, rfl, hd _ (by simpa [Pc.ptrs] using hp)⟩
    | freeAt addr cur =>
      rw [hc] at hv hpl hpok
      obtain ⟨p, rfl, _, hb⟩ := hpl
      obtain ⟨b, hbm, hba⟩ := hpok
      have hp := hv p (by simp [Pc.ptrs])
      simp only [hp, if_true]
      split
      · exact ⟨_, rfl, hd _ (by simpa [Pc.ptrs] using hp)⟩
      · next hcon =>
        have hne : b.pool ≠ p := fun e => hcon (hba ▸ (contains_pool hI hbm hp).mpr e)
        obtain ⟨r, hr, hbr⟩ := hC.chain.next_before (hb ((hC.chain.alive p).mp hp) b hbm hba) hne
        refine ⟨_, rfl, hd _ ?_⟩
        rw [hr]
        simpa [Pc.ptrs] using (hC.chain.alive r).mpr hbr.mem.1
    | freeSub addr p =>
      rw [hc] at hv hpok
      obtain ⟨b, hb, hba, hbp⟩ := hpok
      have hp := hv p (by simp [Pc.ptrs])
      have h0 : (s.pools p).active ≠ 0 := by
        intro h0
        have := sum_zero_of ((hI.pool p hp).active ▸ h0) b hb
        simp [inPool, hbp] at this
      simp only [hp, if_true, h0, if_false]
      split
      · refine ⟨_, rfl, ?_⟩
        intro q hq
        simp [St.setPc, Pc.ptrs] at hq
      · exact ⟨_, rfl, hidle _ (by simp [St.setPc])⟩
    | rm0 =>
      rw [hc] at hpl
      cases hh : s.head with
      | none =>
        have := hC.chain.path
        rw [hh] at this
        simp only [pcL] at hpl
        cases L with
        | nil => exact absurd rfl hpl
        | cons x L => cases this.1
      | some p =>
        have hp := hhead p hh
        simp only [hp, if_true]
        exact ⟨_, rfl, hd _ (by simpa [Pc.ptrs] using hp)⟩
    | rmLoop p empty =>
      rw [hc] at hv
      have hp := hv p (by simp [Pc.ptrs])
      simp only [hp, if_true]
      cases hn : (s.pools p).nxt with
      | none => exact ⟨_, rfl, hidle _ (by simp [St.setPc])⟩
      | some q =>
        have hq := hC.chain.nxt_alive hp hn
        simp only [hq, if_true]
        split
        · split
          · exact ⟨_, rfl, hd _ (by simp [Pc.ptrs, hp, hq])⟩
          · exact ⟨_, rfl, hd _ (by simpa [Pc.ptrs] using hq)⟩
        · exact ⟨_, rfl, hd _ (by simpa [Pc.ptrs] using hq)⟩
    | rmLock p q =>
      have hv' := hv
      rw [hc] at hv
      have hp := hv p (by simp [Pc.ptrs])
      have hq := hv q (by simp [Pc.ptrs])
      cases hlk : s.lock with
      | some u => exact ⟨_, rfl, hv'⟩
      | none =>
        simp only [hp, hq, if_true]
        split
        · exact ⟨_, rfl, hidle _ (by simp [St.setPc])⟩
        · exact ⟨_, rfl, hidle _ (by simp [St.setPc])⟩

theorem chain_remove {R : Nat} {s : St T} {L : List Nat} (hC : ChainInv s L) (t : Fin T) {p q : Nat}
    (hp : (s.pools p).alive = true) (hq : (s.pools q).alive = true) (hpq : (s.pools p).nxt = some q) {s' : St T}
    (hI' : Inv R s') (h1 : s'.pools = upd (upd s.pools p { s.pools p with nxt := (s.pools q).nxt }) q { s.pools q with alive := false })
    (h2 : s'.head = s.head) (h3 : s'.count = s.count) (h4 : s'.blocks = s.blocks) (h5 : s'.pc = upd s.pc t .idle) :
    ∃ L', ChainInv s' L' := by
  obtain ⟨A, B, rfl⟩ := hC.chain.path.mem_next ((hC.chain.alive p).mp hp) hpq
  have hnd := hC.chain.nodup
  have hqA : q ∉ A ∧ q ≠ p ∧ q ∉ B ∧ p ∉ A ∧ p ∉ B := by
    simp only [List.nodup_append, List.nodup_cons, List.mem_cons, not_or] at hnd
    obtain ⟨_, ⟨⟨n1, n2⟩, n3, n4⟩, n5⟩ := hnd
    refine ⟨fun h => ?_, Ne.symm n1, n3, fun h => ?_, n2⟩
    · exact n5 q h q (by simp) rfl
    · exact n5 p h p (by simp) rfl
  obtain ⟨a1, a2, a3, a4, a5⟩ := hqA
  have ne : ∀ r ∈ A ++ B, r ≠ p ∧ r ≠ q := by
    intro r hr
    rcases List.mem_append.mp hr with h | h
    · exact ⟨by rintro rfl; exact a4 h, by rintro rfl; exact a1 h⟩
    · exact ⟨by rintro rfl; exact a5 h, by rintro rfl; exact a3 h⟩
  have hfil : (A ++ p :: q :: B).filter (· ≠ q) = A ++ p :: B := by
    have fA : A.filter (· ≠ q) = A := List.filter_eq_self.mpr fun r hr => by simpa using (ne r (by simp [hr])).2
    have fB : B.filter (· ≠ q) = B := List.filter_eq_self.mpr fun r hr => by simpa using (ne r (by simp [hr])).2
    rw [List.filter_append, List.filter_cons, if_pos (by simpa using Ne.symm a2), List.filter_cons, if_neg (by simp), fA, fB]
  have hmem : ∀ r, r ∈ A ++ p :: B ↔ r ∈ A ++ p :: q :: B ∧ r ≠ q := by
    intro r; rw [← hfil, List.mem_filter]; simp
  refine ⟨A ++ p :: B, ⟨?_, ?_, ?_⟩, ?_⟩
  · rw [h2]
    refine hC.chain.path.remove (nx s') ?_ ?_
    · intro r hr
      unfold nx; rw [h1, upd_ne _ _ (ne r hr).2, upd_ne _ _ (ne r hr).1]
    · unfold nx; rw [h1, upd_ne _ _ (Ne.symm a2), upd_self]
  · rw [← hfil]; exact hnd.filter _
  · intro r
    rw [hmem r, ← hC.chain.alive, h1]
    by_cases e : r = q
    · subst e; simp
    · rw [upd_ne _ _ e]
      by_cases e2 : r = p
      · subst e2; simp [e]
      · rw [upd_ne _ _ e2]; simp [e]
  · intro u
    rw [h5]
    by_cases e : u = t
    · subst e; rw [upd_self]; trivial
    · rw [upd_ne _ _ e]
      refine pcL_mono (hC.pcs u) (by omega) (fun r _ hr => ((hmem r).mp hr).1) (fun _ _ b hb _ => by rw [h4] at hb; exact hb) ?_ ?_ (by simp)
      · intro r b _ hb hr hbef
        rw [← hfil]
        refine hbef.erase ((hmem r).mp hr).2 ?_
        intro e
        have := (hI'.block b hb).alive
        rw [e, h1, upd_self] at this
        cases this
      · intro x y _ _ hx hy hxy
        have hxq := ((hmem x).mp hx).2
        have hyq := ((hmem y).mp hy).2
        have hxp : x ≠ p := by
          rintro rfl
          have : nx s x = some q := hpq
          rw [this] at hxy; cases hxy; exact hyq rfl
        unfold nx at hxy ⊢
        rw [h1, upd_ne _ _ hxq, upd_ne _ _ hxp]; exact hxy

/-- Steps keep the list intact. -/
theorem chain_step {R : Nat} {s s' : St T} {L : List Nat} (hI : Inv R s) (hI' : Inv R s') (hC : ChainInv s L) (t : Fin T) (a : Act)
    (hl : legal R s t a) (he : exec s t a = some s') : ∃ L', ChainInv s' L' := by
  have hlt : ∀ p, (s.pools p).alive = true → p < s.count := fun p hp => (hI.pool p hp).lt
  have hsp : ∀ c, s' = s.setPc t c → pcL s L c → ∃ L', ChainInv s' L' := by
    rintro c rfl hc
    exact ⟨L, chain_setPc hI hI' hC hc⟩
  have hscan : ∀ size align locked, pcL s L (.scan size align s.head locked) := by
    intro size align locked
    cases hh : s.head with
    | none => trivial
    | some q => exact hlt q (hC.chain.head_alive hh)
  cases a with
  | alloc size align => cases he; exact hsp _ rfl (hscan _ _ _)
  | free addr =>
    cases he
    obtain ⟨b, hb, hba⟩ := hl.2.1
    refine hsp _ rfl ?_
    obtain ⟨p, hh, _⟩ := hC.chain.head_before (hI.block b hb).alive
    refine ⟨p, hh, hlt p (hC.chain.head_alive hh), fun _ x hx _ => ?_⟩
    obtain ⟨p', hh', h⟩ := hC.chain.head_before (hI.block x hx).alive
    rw [hh] at hh'; cases hh'; exact h
  | setPoolSize n =>
    cases he
    exact ⟨L, ⟨hC.chain.path, hC.chain.nodup, hC.chain.alive⟩, fun u => pcL_mono (hC.pcs u) (Nat.le_refl _) (fun _ _ h => h) (fun _ _ _ h _ => h)
      (fun _ _ _ _ _ h => h) (fun _ _ _ _ _ _ h => h) id⟩
  | run spur base =>
    obtain ⟨-, hm⟩ := hl
    have hpl := hC.pcs t
    have hpok := hI.pc t
    simp only [exec, run] at he
    cases hc : s.pc t with
    | idle => rw [hc] at he; cases he; exact ⟨L, hC⟩
    | scan size align cur locked =>
      rw [hc] at he hpl hpok
      cases cur with
      | some p =>
        simp only at he
        split at he
        · cases he; exact hsp _ rfl hpl
        · cases he
      | none =>
        cases locked with
        | true =>
          obtain ⟨s2, h1, h2⟩ := newPool_chain hI hC t hpok.1 hpok.2.1 hpok.2.2 hm
          simp only at he
          rw [h1] at he; cases he
          exact ⟨_, h2⟩
        | false =>
          simp only at he
          split at he
          · cases he
            exact ⟨L, chain_keep hI hI' hC t (.scan size align s.head true) (fun _ => ⟨rfl, rfl⟩) rfl rfl (Or.inr fun _ h => h) rfl
              (by have := hscan size align true; cases hh : s.head <;> rw [hh] at this <;> exact this)⟩
          · cases he; exact ⟨L, hC⟩
    | cas size align p e locked =>
      rw [hc] at he hpl
      simp only at he
      split at he
      · next hp =>
        split at he
        · cases he
          refine hsp _ rfl ?_
          cases hn : (s.pools p).nxt with
          | none => trivial
          | some r => exact hlt r (hC.chain.nxt_alive hp hn)
        · next a n c htc =>
          split at he
          · cases he
            refine ⟨L, chain_keep hI hI' hC t .idle ?_ ?_ ?_ (Or.inl ⟨⟨p, a, size, align⟩, ?_⟩) ?_ trivial⟩
            · intro r
              have : ∀ x : St T, (x.unlockIf locked).pools = x.pools := by intro x; cases locked <;> rfl
              rw [this]
              by_cases e : r = p
              · subst e; simp [St.setPc, St.addBlock, St.setPool]
              · simp [St.setPc, St.addBlock, St.setPool, upd_ne _ _ e]
            all_goals cases locked <;> rfl
          · cases he; exact hsp _ rfl hpl
      · cases he
    | freeAt addr cur =>
      rw [hc] at he hpl hpok
      obtain ⟨p, rfl, hplt, hb⟩ := hpl
      obtain ⟨b, hbm, hba⟩ := hpok
      simp only at he
      split at he
      · next hp =>
        split at he
        · cases he; exact hsp _ rfl hplt
        · next hcon =>
          cases he
          have hne : b.pool ≠ p := fun e => hcon (hba ▸ (contains_pool hI hbm hp).mpr e)
          have hB := hb ((hC.chain.alive p).mp hp)
          obtain ⟨r, hr, hbr⟩ := hC.chain.next_before (hB b hbm hba) hne
          refine hsp _ rfl ⟨r, hr, hlt r ((hC.chain.alive r).mpr hbr.mem.1), fun _ x hx hxa => ?_⟩
          have hne' : x.pool ≠ p := fun e => hcon (hxa ▸ (contains_pool hI hx hp).mpr e)
          obtain ⟨r', hr', hbr'⟩ := hC.chain.next_before (hB x hx hxa) hne'
          rw [hr] at hr'; cases hr'; exact hbr'
      · cases he
    | freeSub addr p =>
      rw [hc] at he hpl hpok
      obtain ⟨b, hb, hba, hbp⟩ := hpok
      simp only at he
      split at he
      · next hp =>
        have h0 : (s.pools p).active ≠ 0 := by
          intro h0
          have := sum_zero_of ((hI.pool p hp).active ▸ h0) b hb
          simp [inPool, hbp] at this
        have hLne : L ≠ [] := by
          rintro rfl
          have := (hC.chain.alive p).mp hp
          cases this
        rw [if_neg h0] at he
        have hpools : ∀ r, ((s.setPool p (fetchSub (s.pools p))).pools r).nxt = (s.pools r).nxt ∧
            ((s.setPool p (fetchSub (s.pools p))).pools r).alive = (s.pools r).alive := by
          intro r
          by_cases e : r = p
          · subst e; simp [St.setPool, fetchSub, h0]
          · simp [St.setPool, upd_ne _ _ e]
        split at he
        · cases he
          exact ⟨L, chain_keep hI hI' hC t .rm0 hpools rfl rfl (Or.inr fun b hb => (List.mem_filter.mp hb).1) rfl hLne⟩
        · cases he
          exact ⟨L, chain_keep hI hI' hC t .idle hpools rfl rfl (Or.inr fun b hb => (List.mem_filter.mp hb).1) rfl trivial⟩
      · cases he
    | rm0 =>
      rw [hc] at he
      simp only at he
      split at he
      · cases he
      · next p hh =>
        have hp := hC.chain.head_alive hh
        rw [if_pos hp] at he
        cases he; exact hsp _ rfl (hlt p hp)
    | rmLoop p empty =>
      rw [hc] at he
      simp only at he
      split at he
      · next hp =>
        split at he
        · cases he; exact hsp _ rfl trivial
        · next q hn =>
          have hq := hC.chain.nxt_alive hp hn
          rw [if_pos hq] at he
          split at he
          · split at he
            · cases he; exact hsp _ rfl ⟨hlt p hp, hlt q hq, fun _ _ => hn⟩
            · cases he; exact hsp _ rfl (hlt q hq)
          · cases he; exact hsp _ rfl (hlt q hq)
      · cases he
    | rmLock p q =>
      rw [hc] at he hpl
      simp only at he
      split at he
      · cases he; exact ⟨L, hC⟩
      · split at he
        · next hq =>
          split at he
          · split at he
            · next hp =>
              have hpq := hpl.2.2 ((hC.chain.alive p).mp hp) ((hC.chain.alive q).mp hq)
              cases he
              refine chain_remove hC t hp hq hpq hI' ?_ rfl rfl rfl rfl
              rfl
            · cases he
          · cases he; exact hsp _ rfl trivial
        · cases he

theorem chain_init : ChainInv (St.init : St T) [] :=
  ⟨⟨rfl, by simp, fun p => by simp [St.init]⟩, fun _ => trivial⟩

theorem reach_chain {R : Nat} (hR : hdr + R ≤ 64 * 1024) {s : St T} (h : Reach R s) : ∃ L, ChainInv s L := by
  induction h with
  | init => exact ⟨[], chain_init⟩
  | step t a h hl he ih =>
    obtain ⟨L, hC⟩ := ih
    have hI := reach_inv hR h
    exact chain_step hI (inv_step hI t a hl he) hC t a hl he

end FastNoise.Pool
