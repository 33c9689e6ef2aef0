import Verif.Pool

/-! Invariant of the allocator. -/

namespace FastNoise.Pool

variable {T : Nat}

@[simp] theorem upd_self {α β : Type} [DecidableEq α] (f : α → β) (a : α) (b : β) : upd f a b a = b := if_pos rfl
theorem upd_ne {α β : Type} [DecidableEq α] (f : α → β) {a x : α} (b : β) (h : x ≠ a) : upd f a b x = f x := if_neg h

theorem alignUp_ge {a : Nat} (h : 0 < a) (p : Nat) : p ≤ alignUp a p := by
  unfold alignUp
  have h1 := Nat.div_add_mod (p + a - 1) a
  have h2 := Nat.mod_lt (p + a - 1) h
  rw [Nat.mul_comm] at h1
  omega

theorem alignUp_lt {a : Nat} (h : 0 < a) (p : Nat) : alignUp a p < p + a := by
  unfold alignUp
  have h1 := Nat.div_mul_le_self (p + a - 1) a
  omega

theorem alignUp_dvd (a p : Nat) : a ∣ alignUp a p := ⟨_, Nat.mul_comm _ _⟩

theorem stdAlign_spec {align size ptr space a : Nat} (ha : 0 < align) (h : stdAlign align size ptr space = some a) :
    ptr ≤ a ∧ align ∣ a ∧ a + size ≤ ptr + space := by
  unfold stdAlign at h
  split at h
  · cases h
  · split at h
    · cases h
    · cases h
      have := alignUp_ge ha ptr
      exact ⟨this, alignUp_dvd _ _, by omega⟩

theorem stdAlign_some {align size ptr space : Nat} (ha : 0 < align) (h : size + align ≤ space) : ∃ a, stdAlign align size ptr space = some a := by
  unfold stdAlign
  have := alignUp_lt ha ptr
  rw [if_neg (by omega), if_neg (by omega)]
  exact ⟨_, rfl⟩

theorem sub32_eq {a b : Nat} (h : b ≤ a) (h2 : a < 2 ^ 32) : sub32 a b = a - b := by unfold sub32; omega

theorem newPoolSize_eq {n : Nat} (h : hdr ≤ n) (h2 : n < 2 ^ 31) : newPoolSize n = n - hdr := by
  unfold newPoolSize; rw [sub32_eq h (by omega)]; omega

/-- Blocks of pool `p`: their number and total size. -/
def inPool (p : Nat) (b : Block) : Nat := if b.pool = p then 1 else 0
def szPool (p : Nat) (b : Block) : Nat := if b.pool = p then b.size else 0

structure PoolOK (s : St T) (p : Nat) : Prop where
  lt : p < s.count
  next_lo : 2 ≤ (s.pools p).next
  next_hi : (s.pools p).next ≤ (s.pools p).size
  size_cap : (s.pools p).size ≤ (s.pools p).cap
  size_lt : (s.pools p).size < 2 ^ 31
  active : (s.pools p).active = (s.blocks.map (inPool p)).sum
  total : (s.blocks.map (szPool p)).sum ≤ (s.pools p).next

structure BlockOK (s : St T) (b : Block) : Prop where
  alive : (s.pools b.pool).alive = true
  size : 2 ≤ b.size
  align : b.align ∣ b.addr
  lo : (s.pools b.pool).base ≤ b.addr
  hi : b.addr + b.size ≤ (s.pools b.pool).base + (s.pools b.pool).next

def pcOK (R : Nat) (s : St T) : Pc → Prop
  | .scan size align _ _ => 2 ≤ size ∧ 0 < align ∧ size + align ≤ R
  | .cas size align _ _ _ => 2 ≤ size ∧ 0 < align ∧ size + align ≤ R
  | .freeAt a _ => ∃ b ∈ s.blocks, b.addr = a
  | .freeSub a p => ∃ b ∈ s.blocks, b.addr = a ∧ b.pool = p
  | _ => True

structure Inv (R : Nat) (s : St T) : Prop where
  cfg : hdr + R ≤ s.newSize ∧ s.newSize < 2 ^ 31
  pool : ∀ p, (s.pools p).alive = true → PoolOK s p
  block : ∀ b ∈ s.blocks, BlockOK s b
  disj : s.blocks.Pairwise fun b c => Disjoint b.addr b.size c.addr c.size
  reg : ∀ p q, p ≠ q → (s.pools p).alive = true → (s.pools q).alive = true →
    Disjoint (s.pools p).base (s.pools p).cap (s.pools q).base (s.pools q).cap
  pc : ∀ t, pcOK R s (s.pc t)
  once : ∀ t u a, t ≠ u → (s.pc t).freeing = some a → (s.pc u).freeing ≠ some a

theorem tryCompute_spec {p : Pool} {size align a n c : Nat} (ha : 0 < align) (h1 : p.next ≤ p.size) (h2 : p.size < 2 ^ 31)
    (h3 : p.active < 2 ^ 32 - 1) (h : tryCompute p (p.next, p.active) size align = some (a, n, c)) :
    p.base ≤ a ∧ (p.active ≠ 0 → p.base + p.next ≤ a) ∧ align ∣ a ∧ a + size ≤ p.base + p.size ∧ n = a + size - p.base ∧ c = p.active + 1 := by
  unfold tryCompute at h
  simp only at h
  split at h
  · cases h
  · next x hx =>
    simp only [Option.some.injEq, Prod.mk.injEq] at h
    obtain ⟨rfl, rfl, rfl⟩ := h
    obtain ⟨b1, b2, b3⟩ := stdAlign_spec ha hx
    by_cases e : p.active = 0
    · simp only [e, ne_eq, not_true_eq_false, if_false] at b1 b3
      refine ⟨b1, fun h => absurd e h, b2, b3, ?_, by omega⟩
      rw [Nat.mod_eq_of_lt]; omega
    · simp only [e, ne_eq, not_false_eq_true, if_true] at b1 b3
      rw [sub32_eq h1 (by omega)] at b3
      refine ⟨by omega, fun _ => b1, b2, by omega, ?_, by omega⟩
      rw [Nat.mod_eq_of_lt]; omega

theorem sum_le_of {l : List Block} {f g : Block → Nat} (h : ∀ b ∈ l, f b ≤ g b) : (l.map f).sum ≤ (l.map g).sum := by
  induction l with
  | nil => simp
  | cons b r ih =>
    have h1 := h b (by simp)
    have h2 := ih fun b hb => h b (by simp [hb])
    simp only [List.map_cons, List.sum_cons]
    omega

theorem sum_zero_of {l : List Block} {f : Block → Nat} (h : (l.map f).sum = 0) : ∀ b ∈ l, f b = 0 := by
  induction l with
  | nil => simp
  | cons b r ih =>
    simp only [List.map_cons, List.sum_cons] at h
    intro c hc
    rcases List.mem_cons.mp hc with rfl | hc
    · omega
    · exact ih (by omega) c hc

theorem sum_eq_zero {l : List Block} {f : Block → Nat} (h : ∀ b ∈ l, f b = 0) : (l.map f).sum = 0 := by
  induction l with
  | nil => rfl
  | cons b r ih =>
    simp only [List.map_cons, List.sum_cons]
    rw [h b (by simp), ih fun c hc => h c (by simp [hc])]

theorem filter_sum {l : List Block} {b : Block} (f : Block → Nat) (hn : l.Pairwise fun b c => b.addr ≠ c.addr) (hb : b ∈ l) :
    ((l.filter fun c => c.addr ≠ b.addr).map f).sum + f b = (l.map f).sum := by
  induction l with
  | nil => simp at hb
  | cons c r ih =>
    obtain ⟨h1, h2⟩ := List.pairwise_cons.mp hn
    rcases List.mem_cons.mp hb with e | hb
    · subst e
      have : (r.filter fun c => c.addr ≠ b.addr) = r := List.filter_eq_self.mpr fun x hx => by
        have := h1 x hx
        simpa using Ne.symm this
      rw [List.filter_cons]
      simp only [ne_eq, not_true_eq_false, decide_false, Bool.false_eq_true, if_false, List.map_cons, List.sum_cons]
      simp only [ne_eq] at this
      rw [this]; omega
    · have hne : c.addr ≠ b.addr := h1 b hb
      have := ih h2 hb
      simp only [List.filter_cons, ne_eq, hne, not_false_eq_true, decide_true, if_true, List.map_cons, List.sum_cons]
      simp only [ne_eq] at this
      omega

theorem Inv.distinct {R : Nat} {s : St T} (h : Inv R s) : s.blocks.Pairwise fun b c => b.addr ≠ c.addr := by
  have h1 := h.disj
  have h2 : ∀ b ∈ s.blocks, 2 ≤ b.size := fun b hb => (h.block b hb).size
  generalize s.blocks = l at h1 h2
  induction l with
  | nil => exact List.Pairwise.nil
  | cons b r ih =>
    obtain ⟨a1, a2⟩ := List.pairwise_cons.mp h1
    refine List.pairwise_cons.mpr ⟨fun c hc e => ?_, ih a2 fun c hc => h2 c (by simp [hc])⟩
    have := a1 c hc
    have x1 := h2 b (by simp)
    have x2 := h2 c (by simp [hc])
    unfold Disjoint at this
    omega

theorem PoolOK.active_lt {s : St T} {p : Nat} (h : PoolOK s p) (hb : ∀ b ∈ s.blocks, 2 ≤ b.size) : (s.pools p).active < 2 ^ 31 := by
  have h1 : (s.blocks.map (inPool p)).sum ≤ (s.blocks.map (szPool p)).sum := by
    refine sum_le_of fun b hbm => ?_
    have := hb b hbm
    unfold inPool szPool
    split <;> omega
  have := h.active
  have := h.total
  have := h.next_hi
  have := h.size_lt
  omega

theorem upd_freeing {f : Fin T → Pc} {t : Fin T} {c : Pc} (h : ∀ t u a, t ≠ u → (f t).freeing = some a → (f u).freeing ≠ some a)
    (hc : ∀ a, c.freeing = some a → ∀ u, u ≠ t → (f u).freeing ≠ some a) :
    ∀ x y a, x ≠ y → (upd f t c x).freeing = some a → (upd f t c y).freeing ≠ some a := by
  intro x y a hxy hx
  by_cases e1 : x = t
  · subst e1
    rw [upd_self] at hx
    rw [upd_ne _ _ (Ne.symm hxy)]
    exact hc a hx y (Ne.symm hxy)
  · rw [upd_ne _ _ e1] at hx
    by_cases e2 : y = t
    · subst e2
      rw [upd_self]
      intro hy
      exact hc a hy x e1 hx
    · rw [upd_ne _ _ e2]; exact h x y a hxy hx

/-- Only the program counter of one thread (and perhaps the lock or list links) changes. -/
theorem inv_pc {R : Nat} {s s' : St T} (hI : Inv R s) (t : Fin T) (c : Pc) (h1 : ∀ p, s'.pools p = { s.pools p with nxt := (s'.pools p).nxt })
    (h2 : s'.count = s.count) (h3 : s'.newSize = s.newSize) (h4 : s'.blocks = s.blocks) (h5 : s'.pc = upd s.pc t c)
    (hok : pcOK R s c) (hfr : ∀ a, c.freeing = some a → ∀ u, u ≠ t → (s.pc u).freeing ≠ some a) : Inv R s' := by
  have e1 : ∀ p, (s'.pools p).alive = (s.pools p).alive := fun p => by rw [h1 p]
  have e2 : ∀ p, (s'.pools p).base = (s.pools p).base := fun p => by rw [h1 p]
  have e3 : ∀ p, (s'.pools p).cap = (s.pools p).cap := fun p => by rw [h1 p]
  have e4 : ∀ p, (s'.pools p).next = (s.pools p).next := fun p => by rw [h1 p]
  have e5 : ∀ p, (s'.pools p).size = (s.pools p).size := fun p => by rw [h1 p]
  have e6 : ∀ p, (s'.pools p).active = (s.pools p).active := fun p => by rw [h1 p]
  have okc : ∀ c, pcOK R s c → pcOK R s' c := by
    intro c hc
    cases c <;> simp only [pcOK, h4] at hc ⊢ <;> exact hc
  refine ⟨by rw [h3]; exact hI.cfg, ?_, ?_, by rw [h4]; exact hI.disj, ?_, ?_, ?_⟩
  · intro p hp
    rw [e1] at hp
    obtain ⟨a, b, c, d, e, f, g⟩ := hI.pool p hp
    exact ⟨by rw [h2]; exact a, by rw [e4]; exact b, by rw [e4, e5]; exact c, by rw [e5, e3]; exact d, by rw [e5]; exact e,
      by rw [e6, h4]; exact f, by rw [h4, e4]; exact g⟩
  · intro b hb
    rw [h4] at hb
    obtain ⟨a1, a2, a3, a4, a5⟩ := hI.block b hb
    exact ⟨by rw [e1]; exact a1, a2, a3, by rw [e2]; exact a4, by rw [e2, e4]; exact a5⟩
  · intro p q hpq hp hq
    rw [e1] at hp hq
    rw [e2, e2, e3, e3]; exact hI.reg p q hpq hp hq
  · intro u
    rw [h5]
    by_cases e : u = t
    · subst e; rw [upd_self]; exact okc c hok
    · rw [upd_ne _ _ e]; exact okc _ (hI.pc u)
  · rw [h5]; exact upd_freeing hI.once hfr

theorem inv_setPc {R : Nat} {s : St T} (hI : Inv R s) (t : Fin T) (c : Pc) (hok : pcOK R s c)
    (hfr : ∀ a, c.freeing = some a → ∀ u, u ≠ t → (s.pc u).freeing ≠ some a) : Inv R (s.setPc t c) :=
  inv_pc hI t c (fun _ => rfl) rfl rfl rfl rfl hok hfr

/-- A block in pool `p` lies in the memory of `p`. -/
theorem Inv.block_region {R : Nat} {s : St T} (hI : Inv R s) {b : Block} (hb : b ∈ s.blocks) :
    (s.pools b.pool).base ≤ b.addr ∧ b.addr + b.size ≤ (s.pools b.pool).base + (s.pools b.pool).cap := by
  have h := hI.block b hb
  have p := hI.pool _ h.alive
  have := h.lo; have := h.hi; have := p.next_hi; have := p.size_cap
  omega

/-- `Contains` identifies the right pool. -/
theorem contains_pool {R : Nat} {s : St T} (hI : Inv R s) {b : Block} (hb : b ∈ s.blocks) {p : Nat} (hp : (s.pools p).alive = true) :
    contains (s.pools p) b.addr = true ↔ b.pool = p := by
  have hP := hI.pool p hp
  have hB := hI.block b hb
  have hr := hI.block_region hb
  have n1 := hP.next_lo
  have n2 := hP.next_hi
  have n3 := hP.size_cap
  have n4 := hP.size_lt
  have e : ((s.pools p).next + (2 ^ 32 - 1)) % 2 ^ 32 = (s.pools p).next - 1 := by omega
  unfold contains
  simp only [e, Bool.and_eq_true, decide_eq_true_eq]
  have hs := hB.size
  constructor
  · rintro ⟨c1, c2⟩
    refine Decidable.byContradiction fun hne => ?_
    have hd := hI.reg b.pool p hne hB.alive hp
    unfold Disjoint at hd
    omega
  · rintro rfl
    have := hB.lo; have := hB.hi
    omega

/-- A successful allocation in pool `p`. -/
theorem inv_alloc {R : Nat} {s s' : St T} (hI : Inv R s) (t : Fin T) {p size align a n c : Nat} (hp : (s.pools p).alive = true)
    (ha : 0 < align) (hs : 2 ≤ size) (h : tryCompute (s.pools p) ((s.pools p).next, (s.pools p).active) size align = some (a, n, c))
    (h1 : s'.pools = upd s.pools p { s.pools p with next := n, active := c }) (h2 : s'.count = s.count) (h3 : s'.newSize = s.newSize)
    (h4 : s'.blocks = ⟨p, a, size, align⟩ :: s.blocks) (h5 : s'.pc = upd s.pc t .idle) : Inv R s' := by
  have hP := hI.pool p hp
  have hsz : ∀ b ∈ s.blocks, 2 ≤ b.size := fun b hb => (hI.block b hb).size
  have hact := hP.active_lt hsz
  obtain ⟨k1, k2, k3, k4, k5, k6⟩ := tryCompute_spec ha hP.next_hi hP.size_lt (by omega) h
  have hpp : s'.pools p = { s.pools p with next := n, active := c } := by rw [h1, upd_self]
  have hpq : ∀ q, q ≠ p → s'.pools q = s.pools q := fun q hq => by rw [h1, upd_ne _ _ hq]
  have hempty : (s.pools p).active = 0 → ∀ b ∈ s.blocks, b.pool ≠ p := by
    intro h0 b hb e
    have := sum_zero_of (hP.active ▸ h0) b hb
    simp [inPool, e] at this
  have hbelow : ∀ b ∈ s.blocks, b.pool = p → b.addr + b.size ≤ a := by
    intro b hb e
    have hB := hI.block b hb
    by_cases h0 : (s.pools p).active = 0
    · exact absurd e (hempty h0 b hb)
    · have := k2 h0
      have := hB.hi
      rw [e] at this
      omega
  have hal : ∀ q, (s'.pools q).alive = (s.pools q).alive ∧ (s'.pools q).base = (s.pools q).base ∧ (s'.pools q).cap = (s.pools q).cap ∧
      (s'.pools q).size = (s.pools q).size := by
    intro q
    by_cases e : q = p
    · subst e; rw [hpp]; exact ⟨rfl, rfl, rfl, rfl⟩
    · rw [hpq q e]; exact ⟨rfl, rfl, rfl, rfl⟩
  refine ⟨by rw [h3]; exact hI.cfg, ?_, ?_, ?_, ?_, ?_, ?_⟩
  · intro q hq
    rw [(hal q).1] at hq
    have hQ := hI.pool q hq
    by_cases e : q = p
    · subst e
      refine ⟨by rw [h2]; exact hQ.lt, ?_, ?_, ?_, ?_, ?_, ?_⟩
      · rw [hpp]; simp only; omega
      · rw [hpp]; simp only; omega
      · rw [(hal q).2.2.1, (hal q).2.2.2]; exact hQ.size_cap
      · rw [(hal q).2.2.2]; exact hQ.size_lt
      · rw [hpp, h4]; simp only [List.map_cons, List.sum_cons]
        have := hQ.active
        have e1 : inPool q ⟨q, a, size, align⟩ = 1 := if_pos rfl
        omega
      · rw [hpp, h4]; simp only [List.map_cons, List.sum_cons]
        have e1 : szPool q ⟨q, a, size, align⟩ = size := if_pos rfl
        by_cases h0 : (s.pools q).active = 0
        · have : (s.blocks.map (szPool q)).sum = 0 := sum_eq_zero fun b hb => if_neg (hempty h0 b hb)
          omega
        · have := k2 h0
          have := hQ.total
          omega
    · refine ⟨by rw [h2]; exact hQ.lt, ?_, ?_, ?_, ?_, ?_, ?_⟩
      · rw [hpq q e]; exact hQ.next_lo
      · rw [hpq q e]; exact hQ.next_hi
      · rw [hpq q e]; exact hQ.size_cap
      · rw [hpq q e]; exact hQ.size_lt
      · rw [hpq q e, h4]; simp only [List.map_cons, List.sum_cons]
        have : inPool q ⟨p, a, size, align⟩ = 0 := if_neg (Ne.symm e)
        rw [this, Nat.zero_add]; exact hQ.active
      · rw [hpq q e, h4]; simp only [List.map_cons, List.sum_cons]
        have : szPool q ⟨p, a, size, align⟩ = 0 := if_neg (Ne.symm e)
        rw [this, Nat.zero_add]; exact hQ.total
  · intro b hb
    rw [h4] at hb
    rcases List.mem_cons.mp hb with rfl | hb
    · refine ⟨by rw [(hal p).1]; exact hp, hs, k3, by rw [(hal p).2.1]; exact k1, ?_⟩
      rw [hpp]; simp only; omega
    · have hB := hI.block b hb
      refine ⟨by rw [(hal _).1]; exact hB.alive, hB.size, hB.align, by rw [(hal _).2.1]; exact hB.lo, ?_⟩
      by_cases e : b.pool = p
      · have := hbelow b hb e
        rw [e, hpp]; simp only; omega
      · rw [hpq _ e]; exact hB.hi
  · rw [h4]
    refine List.pairwise_cons.mpr ⟨fun b hb => ?_, hI.disj⟩
    by_cases e : b.pool = p
    · exact Or.inr (hbelow b hb e)
    · have hB := hI.block b hb
      have hr := hI.block_region hb
      have hd := hI.reg b.pool p e hB.alive hp
      have := hP.size_cap
      unfold Disjoint at hd ⊢
      simp only
      have := hB.size
      omega
  · intro q r hqr hq hr
    rw [(hal q).1] at hq
    rw [(hal r).1] at hr
    rw [(hal q).2.1, (hal r).2.1, (hal q).2.2.1, (hal r).2.2.1]
    exact hI.reg q r hqr hq hr
  · intro u
    rw [h5]
    by_cases e : u = t
    · subst e; rw [upd_self]; trivial
    · rw [upd_ne _ _ e]
      have := hI.pc u
      cases hc : s.pc u <;> rw [hc] at this <;> simp only [pcOK, h4] at this ⊢ <;> try exact this
      · obtain ⟨b, hb, hx⟩ := this; exact ⟨b, by simp [hb], hx⟩
      · obtain ⟨b, hb, hx⟩ := this; exact ⟨b, by simp [hb], hx⟩
  · rw [h5]; exact upd_freeing hI.once (by simp [Pc.freeing])

/-- Giving back the block at `addr` in pool `p`. -/
theorem inv_free {R : Nat} {s s' : St T} (hI : Inv R s) (t : Fin T) {p addr : Nat} {b : Block} (hb : b ∈ s.blocks) (hba : b.addr = addr)
    (hbp : b.pool = p) (hpc : (s.pc t).freeing = some addr) {c : Pc} (hc : c = .idle ∨ c = .rm0)
    (h1 : s'.pools = upd s.pools p (fetchSub (s.pools p))) (h2 : s'.count = s.count) (h3 : s'.newSize = s.newSize)
    (h4 : s'.blocks = s.blocks.filter fun b => b.addr ≠ addr) (h5 : s'.pc = upd s.pc t c) : Inv R s' := by
  subst hba hbp
  have hB := hI.block b hb
  have hP := hI.pool _ hB.alive
  have hf := fun f => filter_sum f hI.distinct hb
  have hpos : 0 < (s.pools b.pool).active := by
    have := hf (inPool b.pool)
    have e : inPool b.pool b = 1 := if_pos rfl
    have := hP.active
    omega
  have hfs : fetchSub (s.pools b.pool) = { s.pools b.pool with active := (s.pools b.pool).active - 1 } := by
    unfold fetchSub; rw [if_neg (by omega)]
  rw [hfs] at h1
  have hpp : s'.pools b.pool = { s.pools b.pool with active := (s.pools b.pool).active - 1 } := by rw [h1, upd_self]
  have hpq : ∀ q, q ≠ b.pool → s'.pools q = s.pools q := fun q hq => by rw [h1, upd_ne _ _ hq]
  have hal : ∀ q, (s'.pools q).alive = (s.pools q).alive ∧ (s'.pools q).base = (s.pools q).base ∧ (s'.pools q).cap = (s.pools q).cap ∧
      (s'.pools q).size = (s.pools q).size ∧ (s'.pools q).next = (s.pools q).next := by
    intro q
    by_cases e : q = b.pool
    · subst e; rw [hpp]; exact ⟨rfl, rfl, rfl, rfl, rfl⟩
    · rw [hpq q e]; exact ⟨rfl, rfl, rfl, rfl, rfl⟩
  have hmem : ∀ x, x ∈ s'.blocks ↔ x ∈ s.blocks ∧ x.addr ≠ b.addr := by intro x; rw [h4]; simp
  refine ⟨by rw [h3]; exact hI.cfg, ?_, ?_, by rw [h4]; exact hI.disj.sublist List.filter_sublist, ?_, ?_, ?_⟩
  · intro q hq
    rw [(hal q).1] at hq
    have hQ := hI.pool q hq
    obtain ⟨x1, x2, x3, x4, x5⟩ := hal q
    refine ⟨by rw [h2]; exact hQ.lt, by rw [x5]; exact hQ.next_lo, by rw [x5, x4]; exact hQ.next_hi, by rw [x3, x4]; exact hQ.size_cap,
      by rw [x4]; exact hQ.size_lt, ?_, ?_⟩
    · have := hf (inPool q)
      rw [h4]
      by_cases e : q = b.pool
      · subst e
        have e1 : inPool b.pool b = 1 := if_pos rfl
        rw [hpp]; simp only
        have := hQ.active
        omega
      · have e1 : inPool q b = 0 := if_neg (Ne.symm e)
        rw [hpq q e]
        have := hQ.active
        omega
    · have := hf (szPool q)
      rw [h4, x5]
      have := hQ.total
      omega
  · intro x hx
    rw [hmem] at hx
    have hX := hI.block x hx.1
    obtain ⟨x1, x2, x3, x4, x5⟩ := hal x.pool
    exact ⟨by rw [x1]; exact hX.alive, hX.size, hX.align, by rw [x2]; exact hX.lo, by rw [x2, x5]; exact hX.hi⟩
  · intro q r hqr hq hr
    rw [(hal q).1] at hq
    rw [(hal r).1] at hr
    rw [(hal q).2.1, (hal r).2.1, (hal q).2.2.1, (hal r).2.2.1]
    exact hI.reg q r hqr hq hr
  · intro u
    rw [h5]
    by_cases e : u = t
    · subst e; rw [upd_self]
      rcases hc with rfl | rfl <;> trivial
    · rw [upd_ne _ _ e]
      have h6 := hI.pc u
      have h7 := hI.once t u b.addr (Ne.symm e) hpc
      cases hcu : s.pc u <;> rw [hcu] at h6 h7 <;> simp only [pcOK] at h6 ⊢ <;> try exact h6
      · obtain ⟨x, hx, hxa⟩ := h6
        refine ⟨x, (hmem x).mpr ⟨hx, ?_⟩, hxa⟩
        rintro hxe
        rw [hxa] at hxe
        exact h7 (by rw [← hxe]; rfl)
      · obtain ⟨x, hx, hxa, hxp⟩ := h6
        refine ⟨x, (hmem x).mpr ⟨hx, ?_⟩, hxa, hxp⟩
        rintro hxe
        rw [hxa] at hxe
        exact h7 (by rw [← hxe]; rfl)
  · rw [h5]; refine upd_freeing hI.once ?_
    rcases hc with rfl | rfl <;> simp [Pc.freeing]

theorem tryCompute_new {base sz size align a : Nat} (hsz : sz < 2 ^ 31) (hsa : stdAlign align size base sz = some a) (b3 : a + size ≤ base + sz) :
    tryCompute (mkPool base sz sz) ((mkPool base sz sz).next, (mkPool base sz sz).active) size align = some (a, a + size - base, 1) := by
  simp only [tryCompute, mkPool, ne_eq, not_true_eq_false, if_false, hsa]
  have e1 : (a + size - base) % 2 ^ 32 = a + size - base := Nat.mod_eq_of_lt (by omega)
  have e2 : (0 + 1) % 2 ^ 32 = 1 := by decide
  rw [e1, e2]

theorem newPoolAt_some {s s' : St T} (t : Fin T) {size align : Nat} {p : Pool} {a n c : Nat}
    (htc : tryCompute p (p.next, p.active) size align = some (a, n, c))
    (h : newPoolAt s t size align p = some s') :
    linkPool s t { p with next := n, active := c } (⟨s.count, a, size, align⟩ :: s.blocks) = some s' := by
  unfold newPoolAt at h
  rw [htc] at h
  exact h

theorem newPool_eq {s : St T} (t : Fin T) {size align base sz : Nat} {r : Option (St T)} (hsz : newPoolSize s.newSize = sz)
    (hcap : max hdr s.newSize - hdr = sz) (h : newPool s t size align base = r) : newPoolAt s t size align (mkPool base sz sz) = r := by
  unfold newPool at h
  rw [hsz, hcap] at h
  exact h

/-- What linking a pool does. -/
theorem linkPool_facts {s s' : St T} {t : Fin T} {p : Pool} {bs : List Block} (h : linkPool s t p bs = some s') :
    (∀ q, q ≠ s.count → s'.pools q = { s.pools q with nxt := (s'.pools q).nxt }) ∧
      s'.pools s.count = { p with nxt := (s'.pools s.count).nxt } ∧
      s'.count = s.count + 1 ∧ s'.newSize = s.newSize ∧ s'.blocks = bs ∧ s'.pc = upd s.pc t .idle := by
  simp only [linkPool] at h
  split at h
  · cases h
    refine ⟨fun q hq => ?_, ?_, rfl, rfl, rfl, rfl⟩
    · simp only [upd_ne _ _ hq]
    · simp only [upd_self]
  · split at h
    · cases h
    · next l _ =>
      cases h
      refine ⟨fun q hq => ?_, ?_, rfl, rfl, rfl, rfl⟩
      · by_cases e : q = l
        · subst e; simp [St.setPool, upd_ne _ _ hq]
        · simp only [St.setPool, upd_ne _ _ e, upd_ne _ _ hq]
      · by_cases e : s.count = l
        · subst e; simp [St.setPool]
        · simp [St.setPool, upd_ne _ _ e]

/-- What adding a pool does when the request fits. -/
theorem newPool_facts {s s' : St T} (t : Fin T) {size align base sz a : Nat} (hsz : newPoolSize s.newSize = sz)
    (hcap : max hdr s.newSize - hdr = sz)
    (htc : tryCompute (mkPool base sz sz) ((mkPool base sz sz).next, (mkPool base sz sz).active) size align = some (a, a + size - base, 1))
    (h : newPool s t size align base = some s') :
    (∀ q, q ≠ s.count → s'.pools q = { s.pools q with nxt := (s'.pools q).nxt }) ∧
      s'.pools s.count = ⟨base, sz, sz, a + size - base, 1, (s'.pools s.count).nxt, true⟩ ∧
      s'.count = s.count + 1 ∧ s'.newSize = s.newSize ∧ s'.blocks = ⟨s.count, a, size, align⟩ :: s.blocks ∧ s'.pc = upd s.pc t .idle :=
  linkPool_facts (newPoolAt_some t htc (newPool_eq t hsz hcap h))

/-- Adding a pool with its first block. -/
theorem inv_newPool {R : Nat} {s s' : St T} (hI : Inv R s) (t : Fin T) {size align base : Nat} (hs : 2 ≤ size) (ha : 0 < align)
    (hR : size + align ≤ R) (hm : mallocOK s base) (h : newPool s t size align base = some s') : Inv R s' := by
  obtain ⟨g1, g2⟩ := hI.cfg
  have hcap : max hdr s.newSize - hdr = s.newSize - hdr := by rw [Nat.max_eq_right (by omega)]
  obtain ⟨a, hsa⟩ := stdAlign_some (size := size) (ptr := base) (space := s.newSize - hdr) ha (by omega)
  obtain ⟨b1, b2, b3⟩ := stdAlign_spec ha hsa
  have facts := newPool_facts t (newPoolSize_eq (by omega) g2) hcap (tryCompute_new (by omega) hsa b3) h
  obtain ⟨f1, f2, f3, f4, f5, f6⟩ := facts
  clear h
  have hnot : ∀ q, (s.pools q).alive = true → q ≠ s.count := fun q hq e => by
    have := (hI.pool q hq).lt; omega
  have hbn : ∀ b ∈ s.blocks, b.pool ≠ s.count := fun b hb => hnot _ (hI.block b hb).alive
  have hal : ∀ q, q ≠ s.count → (s'.pools q).alive = (s.pools q).alive ∧ (s'.pools q).base = (s.pools q).base ∧
      (s'.pools q).cap = (s.pools q).cap ∧ (s'.pools q).size = (s.pools q).size ∧ (s'.pools q).next = (s.pools q).next ∧
      (s'.pools q).active = (s.pools q).active := by
    intro q hq; rw [f1 q hq]; exact ⟨rfl, rfl, rfl, rfl, rfl, rfl⟩
  have n1 : (s'.pools s.count).base = base := by rw [f2]
  have n2 : (s'.pools s.count).size = s.newSize - hdr := by rw [f2]
  have n3 : (s'.pools s.count).cap = s.newSize - hdr := by rw [f2]
  have n4 : (s'.pools s.count).next = a + size - base := by rw [f2]
  have n5 : (s'.pools s.count).active = 1 := by rw [f2]
  have n6 : (s'.pools s.count).alive = true := by rw [f2]
  clear f2
  refine ⟨by rw [f4]; exact hI.cfg, ?_, ?_, ?_, ?_, ?_, ?_⟩
  · intro q hq
    by_cases e : q = s.count
    · subst e
      refine ⟨by omega, by rw [n4]; omega, by rw [n4, n2]; omega, by rw [n2, n3]; exact Nat.le_refl _, by rw [n2]; omega, ?_, ?_⟩
      · rw [n5, f5]; simp only [List.map_cons, List.sum_cons]
        have : (s.blocks.map (inPool s.count)).sum = 0 := sum_eq_zero fun b hb => if_neg (hbn b hb)
        rw [this]; simp [inPool]
      · rw [n4, f5]; simp only [List.map_cons, List.sum_cons]
        have : (s.blocks.map (szPool s.count)).sum = 0 := sum_eq_zero fun b hb => if_neg (hbn b hb)
        rw [this]; simp only [szPool, if_true]; omega
    · obtain ⟨x1, x2, x3, x4, x5, x6⟩ := hal q e
      rw [x1] at hq
      have hQ := hI.pool q hq
      refine ⟨by rw [f3]; have := hQ.lt; omega, by rw [x5]; exact hQ.next_lo, by rw [x5, x4]; exact hQ.next_hi,
        by rw [x3, x4]; exact hQ.size_cap, by rw [x4]; exact hQ.size_lt, ?_, ?_⟩
      · rw [x6, f5]; simp only [List.map_cons, List.sum_cons]
        have : inPool q ⟨s.count, a, size, align⟩ = 0 := if_neg (Ne.symm e)
        rw [this, Nat.zero_add]; exact hQ.active
      · rw [x5, f5]; simp only [List.map_cons, List.sum_cons]
        have : szPool q ⟨s.count, a, size, align⟩ = 0 := if_neg (Ne.symm e)
        rw [this, Nat.zero_add]; exact hQ.total
  · intro b hb
    rw [f5] at hb
    rcases List.mem_cons.mp hb with rfl | hb
    · exact ⟨n6, hs, b2, by simp only [n1]; exact b1, by simp only [n1, n4]; omega⟩
    · obtain ⟨x1, x2, x3, x4, x5, x6⟩ := hal b.pool (hbn b hb)
      have hB := hI.block b hb
      exact ⟨by rw [x1]; exact hB.alive, hB.size, hB.align, by rw [x2]; exact hB.lo, by rw [x2, x5]; exact hB.hi⟩
  · rw [f5]
    refine List.pairwise_cons.mpr ⟨fun b hb => ?_, hI.disj⟩
    have hB := hI.block b hb
    have hr := hI.block_region hb
    have hd := hm b.pool hB.alive
    rw [hcap] at hd
    have := hB.size
    unfold Disjoint at hd ⊢
    simp only
    omega
  · intro q r hqr hq hr
    by_cases e1 : q = s.count
    · subst e1
      obtain ⟨x1, x2, x3, -⟩ := hal r (Ne.symm hqr)
      rw [x1] at hr
      have := hm r hr
      rw [hcap] at this
      rw [x2, x3, n1, n3]; exact this
    · obtain ⟨x1, x2, x3, -⟩ := hal q e1
      rw [x1] at hq
      by_cases e2 : r = s.count
      · subst e2
        have := hm q hq
        rw [hcap] at this
        rw [x2, x3, n1, n3]
        unfold Disjoint at this ⊢
        omega
      · obtain ⟨y1, y2, y3, -⟩ := hal r e2
        rw [y1] at hr
        rw [x2, x3, y2, y3]; exact hI.reg q r hqr hq hr
  · intro u
    rw [f6]
    by_cases e : u = t
    · subst e; rw [upd_self]; trivial
    · rw [upd_ne _ _ e]
      have := hI.pc u
      cases hc : s.pc u <;> rw [hc] at this <;> simp only [pcOK, f5] at this ⊢ <;> try exact this
      · obtain ⟨b, hb, hx⟩ := this; exact ⟨b, by simp [hb], hx⟩
      · obtain ⟨b, hb, hx⟩ := this; exact ⟨b, by simp [hb], hx⟩
  · rw [f6]; exact upd_freeing hI.once (by simp [Pc.freeing])

/-- Removing an empty pool. -/
theorem inv_remove {R : Nat} {s s' : St T} (hI : Inv R s) (t : Fin T) {q : Nat} (hq : (s.pools q).alive = true) (h0 : (s.pools q).active = 0)
    (h1 : ∀ r, r ≠ q → s'.pools r = { s.pools r with nxt := (s'.pools r).nxt }) (h1q : (s'.pools q).alive = false)
    (h2 : s'.count = s.count) (h3 : s'.newSize = s.newSize) (h4 : s'.blocks = s.blocks) (h5 : s'.pc = upd s.pc t .idle) : Inv R s' := by
  have hnb : ∀ b ∈ s.blocks, b.pool ≠ q := by
    intro b hb e
    have := sum_zero_of ((hI.pool q hq).active ▸ h0) b hb
    simp [inPool, e] at this
  have hne : ∀ r, (s'.pools r).alive = true → r ≠ q := by rintro r hr rfl; rw [h1q] at hr; cases hr
  have hal : ∀ r, r ≠ q → (s'.pools r).alive = (s.pools r).alive ∧ (s'.pools r).base = (s.pools r).base ∧
      (s'.pools r).cap = (s.pools r).cap ∧ (s'.pools r).size = (s.pools r).size ∧ (s'.pools r).next = (s.pools r).next ∧
      (s'.pools r).active = (s.pools r).active := by
    intro r hr; rw [h1 r hr]; exact ⟨rfl, rfl, rfl, rfl, rfl, rfl⟩
  refine ⟨by rw [h3]; exact hI.cfg, ?_, ?_, by rw [h4]; exact hI.disj, ?_, ?_, ?_⟩
  · intro r hr
    obtain ⟨x1, x2, x3, x4, x5, x6⟩ := hal r (hne r hr)
    rw [x1] at hr
    obtain ⟨a, b, c, d, e, f, g⟩ := hI.pool r hr
    exact ⟨by rw [h2]; exact a, by rw [x5]; exact b, by rw [x5, x4]; exact c, by rw [x4, x3]; exact d, by rw [x4]; exact e,
      by rw [x6, h4]; exact f, by rw [h4, x5]; exact g⟩
  · intro b hb
    rw [h4] at hb
    obtain ⟨x1, x2, x3, x4, x5, x6⟩ := hal b.pool (hnb b hb)
    obtain ⟨a1, a2, a3, a4, a5⟩ := hI.block b hb
    exact ⟨by rw [x1]; exact a1, a2, a3, by rw [x2]; exact a4, by rw [x2, x5]; exact a5⟩
  · intro r r' hrr hr hr'
    obtain ⟨x1, x2, x3, -⟩ := hal r (hne r hr)
    obtain ⟨y1, y2, y3, -⟩ := hal r' (hne r' hr')
    rw [x1] at hr; rw [y1] at hr'
    rw [x2, x3, y2, y3]; exact hI.reg r r' hrr hr hr'
  · intro u
    rw [h5]
    by_cases e : u = t
    · subst e; rw [upd_self]; trivial
    · rw [upd_ne _ _ e]
      have := hI.pc u
      cases hc : s.pc u <;> rw [hc] at this <;> simp only [pcOK, h4] at this ⊢ <;> exact this
  · rw [h5]; exact upd_freeing hI.once (by simp [Pc.freeing])

theorem inv_init {R : Nat} (hR : hdr + R ≤ 64 * 1024) : Inv R (St.init : St T) := by
  refine ⟨⟨hR, by simp [St.init]⟩, ?_, ?_, ?_, ?_, ?_, ?_⟩ <;> intros <;> simp_all [St.init, pcOK, Pc.freeing]

theorem inv_step {R : Nat} {s s' : St T} (hI : Inv R s) (t : Fin T) (a : Act) (hl : legal R s t a) (he : exec s t a = some s') :
    Inv R s' := by
  cases a with
  | alloc size align =>
    cases he
    exact inv_setPc hI t _ hl.2 (by simp [Pc.freeing])
  | free addr =>
    cases he
    refine inv_setPc hI t _ hl.2.1 ?_
    intro a ha u _
    simp only [Pc.freeing, Option.some.injEq] at ha
    subst ha; exact hl.2.2 u
  | setPoolSize n =>
    cases he
    exact ⟨hl.2, fun p hp => ⟨(hI.pool p hp).lt, (hI.pool p hp).next_lo, (hI.pool p hp).next_hi, (hI.pool p hp).size_cap,
      (hI.pool p hp).size_lt, (hI.pool p hp).active, (hI.pool p hp).total⟩, fun b hb => ⟨(hI.block b hb).alive, (hI.block b hb).size,
      (hI.block b hb).align, (hI.block b hb).lo, (hI.block b hb).hi⟩, hI.disj, hI.reg, fun t => by
        have := hI.pc t
        cases hc : s.pc t <;> simp only [hc, pcOK] at this ⊢ <;> exact this, hI.once⟩
  | run spur base =>
    obtain ⟨-, hm⟩ := hl
    simp only [exec, run] at he
    have hpct := hI.pc t
    split at he
    · cases he; exact hI
    · next size align p locked hc =>
      rw [hc] at hpct
      split at he
      · cases he; exact inv_setPc hI t _ hpct (by simp [Pc.freeing])
      · cases he
    · next size align hc =>
      rw [hc] at hpct
      split at he
      · cases he
        exact inv_pc hI t (.scan size align s.head true) (fun _ => rfl) rfl rfl rfl rfl hpct (by simp [Pc.freeing])
      · cases he; exact hI
    · next size align hc =>
      rw [hc] at hpct
      exact inv_newPool hI t hpct.1 hpct.2.1 hpct.2.2 hm he
    · next size align p e locked hc =>
      rw [hc] at hpct
      split at he
      · next hp =>
        split at he
        · cases he; exact inv_setPc hI t _ hpct (by simp [Pc.freeing])
        · next a n c htc =>
          split at he
          · next hcas =>
            rw [hcas.1] at htc
            cases he
            refine inv_alloc hI t hp hpct.2.1 hpct.1 htc ?_ ?_ ?_ ?_ ?_ <;> cases locked <;> rfl
          · cases he; exact inv_setPc hI t _ hpct (by simp [Pc.freeing])
      · cases he
    · cases he
    · next addr p hc =>
      have honce : ∀ c' : Pc, c'.freeing = some addr → ∀ a, c'.freeing = some a → ∀ u, u ≠ t → (s.pc u).freeing ≠ some a := by
        intro c' h1 a h2 u hu
        rw [h1] at h2; cases h2
        exact hI.once t u addr (Ne.symm hu) (by rw [hc]; rfl)
      rw [hc] at hpct
      obtain ⟨b, hb, rfl⟩ := hpct
      split at he
      · next hp =>
        split at he
        · next hcon =>
          cases he
          exact inv_setPc hI t _ ⟨b, hb, rfl, (contains_pool hI hb hp).mp hcon⟩ (honce _ rfl)
        · cases he
          exact inv_setPc hI t _ ⟨b, hb, rfl⟩ (honce _ rfl)
      · cases he
    · next addr p hc =>
      have hfr : (s.pc t).freeing = some addr := by rw [hc]; rfl
      rw [hc] at hpct
      obtain ⟨b, hb, hba, hbp⟩ := hpct
      split at he
      · next hp =>
        split at he
        · next h0 =>
          exfalso
          have := sum_zero_of ((hI.pool p hp).active ▸ h0) b hb
          simp [inPool, hbp] at this
        · split at he
          · cases he
            exact inv_free hI t hb hba hbp hfr (Or.inr rfl) rfl rfl rfl rfl rfl
          · cases he
            exact inv_free hI t hb hba hbp hfr (Or.inl rfl) rfl rfl rfl rfl rfl
      · cases he
    · split at he
      · cases he
      · split at he
        · cases he; exact inv_setPc hI t _ trivial (by simp [Pc.freeing])
        · cases he
    · split at he
      · split at he
        · cases he; exact inv_setPc hI t _ trivial (by simp [Pc.freeing])
        · split at he
          · split at he
            · split at he <;> cases he <;> exact inv_setPc hI t _ trivial (by simp [Pc.freeing])
            · cases he; exact inv_setPc hI t _ trivial (by simp [Pc.freeing])
          · cases he
      · cases he
    · next p q hc =>
      split at he
      · cases he; exact hI
      · split at he
        · next hq =>
          split at he
          · next h0 =>
            split at he
            · cases he
              refine inv_remove hI t hq h0 ?_ (by simp [St.setPc, St.setPool]) rfl rfl rfl rfl
              intro r hr
              by_cases e : r = p
              · subst e; simp [St.setPc, St.setPool, upd_ne _ _ hr]
              · simp [St.setPc, St.setPool, upd_ne _ _ hr, upd_ne _ _ e]
            · cases he
          · cases he; exact inv_setPc hI t _ trivial (by simp [Pc.freeing])
        · cases he

theorem reach_inv {R : Nat} (hR : hdr + R ≤ 64 * 1024) {s : St T} (h : Reach R s) : Inv R s := by
  induction h with
  | init => exact inv_init hR
  | step t a _ hl he ih => exact inv_step ih t a hl he

end FastNoise.Pool
