import Verif.MeshClosed
import Mathlib.Data.List.Pairwise
import Mathlib.Algebra.BigOperators.Group.Finset.Sigma

/-! The meshes of many chunks together. -/

namespace FastNoise.Mesh

theorem jobs_nodup (k : Nat) (c : I3) : (jobs k c k).Nodup := by
  unfold jobs
  rw [List.nodup_flatMap]
  refine ⟨fun z _ => ?_, List.Pairwise.imp_of_mem ?_ (List.nodup_range (n := k))⟩
  · unfold jobSlab
    rw [List.nodup_flatMap]
    refine ⟨fun y _ => ?_, List.Pairwise.imp_of_mem ?_ (List.nodup_range (n := k))⟩
    · unfold jobRow
      rw [List.nodup_flatMap]
      refine ⟨fun x _ => by simp [jobCell], List.Pairwise.imp_of_mem ?_ (List.nodup_range (n := k))⟩
      intro x x' _ _ hne
      simp [Function.onFun, jobCell, hne.symm]
    · intro y y' _ _ hne
      simp only [Function.onFun, List.disjoint_left, jobRow, jobCell, List.mem_flatMap, List.mem_cons, List.not_mem_nil, or_false]
      rintro ⟨v, a⟩ ⟨x, _, h⟩ ⟨x', _, h'⟩
      simp only [Prod.mk.injEq] at h h'
      have h1 : v.y = c.y + y := by rcases h with h | h | h <;> rw [h.1]
      have h2 : v.y = c.y + y' := by rcases h' with h | h | h <;> rw [h.1]
      omega
  · intro z z' _ _ hne
    simp only [Function.onFun, List.disjoint_left, jobSlab, jobRow, jobCell, List.mem_flatMap, List.mem_cons, List.not_mem_nil, or_false]
    rintro ⟨v, a⟩ ⟨y, _, x, _, h⟩ ⟨y', _, x', _, h'⟩
    simp only [Prod.mk.injEq] at h h'
    have h1 : v.z = c.z + z := by rcases h with h | h | h <;> rw [h.1]
    have h2 : v.z = c.z + z' := by rcases h' with h | h | h <;> rw [h.1]
    omega

theorem all_nodup {n : Nat} {cs : List I3} (h : Apart n cs) : (cs.flatMap fun c => jobs n c n).Nodup := by
  rw [List.nodup_flatMap]
  refine ⟨fun c _ => jobs_nodup n c, h.imp ?_⟩
  intro c c' hcc
  simp only [Function.onFun, List.disjoint_left]
  rintro ⟨v, a⟩ h1 h2
  exact hcc v ⟨mem_jobs.mp h1, mem_jobs.mp h2⟩

theorem mem_all {n : Nat} {cs : List I3} {v : I3} {a : Axis} : (v, a) ∈ (cs.flatMap fun c => jobs n c n) ↔ ∃ c ∈ cs, InChunk n c v := by
  simp only [List.mem_flatMap, mem_jobs]

/-- The sum over all quads of the chunks as a sum over the lattice. -/
theorem sum_jobs {n : Nat} {cs : List I3} (h : Apart n cs) (t : I3 → Axis → ℤ) (h0 : ∀ v, (¬ ∃ c ∈ cs, InChunk n c v) → ∀ a, t v a = 0) :
    ((cs.flatMap fun c => jobs n c n).map fun p => t p.1 p.2).sum = ∑ᶠ v, (t v .x + t v .y + t v .z) := by
  obtain ⟨L, hL⟩ : ∃ L, L = cs.flatMap fun c => jobs n c n := ⟨_, rfl⟩
  have hn : L.Nodup := hL ▸ all_nodup h
  have hmem : ∀ v a, (v, a) ∈ L ↔ ∃ c ∈ cs, InChunk n c v := by intro v a; rw [hL, mem_all]
  rw [← hL, ← List.sum_toFinset _ hn]
  have hF : L.toFinset = (L.map Prod.fst).toFinset ×ˢ ({.x, .y, .z} : Finset Axis) := by
    ext ⟨v, a⟩
    simp only [List.mem_toFinset, Finset.mem_product, List.mem_map, Prod.exists, exists_and_right, exists_eq_right, Finset.mem_insert, Finset.mem_singleton]
    constructor
    · intro h'
      refine ⟨⟨a, h'⟩, ?_⟩
      cases a <;> simp
    · rintro ⟨⟨a', h'⟩, _⟩
      exact (hmem v a).mpr ((hmem v a').mp h')
  rw [hF, Finset.sum_product, finsum_eq_sum_of_support_subset (s := (L.map Prod.fst).toFinset)]
  · apply Finset.sum_congr rfl
    intro v _
    rw [Finset.sum_insert (by simp), Finset.sum_insert (by simp), Finset.sum_singleton]; ring
  · intro v hv
    rw [Function.mem_support] at hv
    by_contra hno
    apply hv
    have : ¬ ∃ c ∈ cs, InChunk n c v := by
      intro hc
      apply hno
      rw [Finset.mem_coe, List.mem_toFinset]
      exact List.mem_map.mpr ⟨(v, .x), (hmem v .x).mpr hc, rfl⟩
    rw [h0 v this, h0 v this, h0 v this]; rfl

theorem around_off (ax : Axis) (i : Nat) : let o := ((around ax).getD i (0, ⟨0, 0, 0⟩)).2
    (o.x = 0 ∨ o.x = 1) ∧ (o.y = 0 ∨ o.y = 1) ∧ (o.z = 0 ∨ o.z = 1) := by
  cases ax <;> rcases i with _ | _ | _ | _ | i <;> simp [around]

theorem qpos_close (f : I3 → ℝ) (iso : ℝ) (v : I3) (ax : Axis) (i : Nat) : Close v (qpos f iso v ax i) := by
  unfold qpos dualAt
  have ho := around_off ax i
  generalize (around ax).getD i (0, ⟨0, 0, 0⟩) = e at ho ⊢
  have h := gpos_cell f iso ⟨v.x - e.2.x, v.y - e.2.y, v.z - e.2.z⟩ e.1
  generalize gpos f iso ⟨v.x - e.2.x, v.y - e.2.y, v.z - e.2.z⟩ (gpoint f iso ⟨v.x - e.2.x, v.y - e.2.y, v.z - e.2.z⟩ e.1) = g at h
  rw [mk_sub] at h
  simp only [InUnit, I3.toV] at h
  push_cast at h
  simp only at ho
  have key : ∀ (a o : ℤ) (r : ℝ), (o = 0 ∨ o = 1) → (0 ≤ r - ((a : ℝ) - (o : ℝ)) ∧ r - ((a : ℝ) - (o : ℝ)) ≤ 1) → |(a : ℝ) - r| ≤ 1 := by
    intro a o r ho h
    rw [abs_le]
    rcases ho with rfl | rfl <;> push_cast at h <;> constructor <;> linarith
  exact ⟨key _ _ _ ho.1 h.1, key _ _ _ ho.2.1 h.2.1, key _ _ _ ho.2.2 h.2.2⟩

open Classical in
/-- Number of directed edges from `p` to `q` minus those from `q` to `p`. -/
noncomputable def signed (p q a b : V3) : ℤ := (if (a, b) = (p, q) then 1 else 0) - (if (a, b) = (q, p) then 1 else 0)

theorem signed_anti (p q : V3) : Anti (signed p q) := by
  intro a b
  unfold signed
  have e1 : (b, a) = (q, p) ↔ (a, b) = (p, q) := by simp only [Prod.mk.injEq, and_comm]
  have e2 : (b, a) = (p, q) ↔ (a, b) = (q, p) := by simp only [Prod.mk.injEq, and_comm]
  by_cases h1 : (a, b) = (p, q) <;> by_cases h2 : (a, b) = (q, p)
  · rw [if_pos h1, if_pos h2, if_pos (e1.mpr h1), if_pos (e2.mpr h2)]; rfl
  · rw [if_pos h1, if_neg h2, if_pos (e1.mpr h1), if_neg (fun h => h2 (e2.mp h))]; rfl
  · rw [if_neg h1, if_pos h2, if_neg (fun h => h1 (e1.mp h)), if_pos (e2.mpr h2)]; rfl
  · rw [if_neg h1, if_neg h2, if_neg (fun h => h1 (e1.mp h)), if_neg (fun h => h2 (e2.mp h))]; rfl

open Classical in
theorem wsum_signed (p q : V3) (e : List (V3 × V3)) : wsum (signed p q) e = (e.count (p, q) : ℤ) - (e.count (q, p) : ℤ) := by
  unfold wsum
  induction e with
  | nil => simp
  | cons x e ih =>
    rw [List.map_cons, List.sum_cons, ih, List.count_cons, List.count_cons]
    unfold signed
    push_cast
    simp only [beq_iff_eq, Prod.mk.eta]
    ring

theorem world_wsum {G : V3 → V3 → ℤ} (hG : Anti G) (b : Build) {cs : List I3} {ms : List (List (V3 × ℝ) × List Nat)}
    (h : List.Forall₂ (fun c m => buildDmc { b with pos := c } = some m) cs ms) :
    wsum G (worldEdges ms) = ((cs.flatMap fun c => jobs b.size c b.size).map fun p => term G (field b) b.iso p.1 p.2).sum := by
  induction h with
  | nil => simp [worldEdges, wsum]
  | @cons c m cs ms hc _ ih =>
    obtain ⟨m', hm, _, ha, _⟩ := buildDmc_spec { b with pos := c }
    rw [hc] at hm
    cases hm
    have h1 := (assembled_wsum hG ha).2
    rw [show worldEdges (m :: ms) = directedEdges (cornersOf m) ++ worldEdges ms by simp [worldEdges], wsum_append, ih, h1]
    rw [List.flatMap_cons, List.map_append, List.sum_append]
    rfl

open Classical in
theorem world_balanced (b : Build) {cs : List I3} {ms : List (List (V3 × ℝ) × List Nat)} (hcs : Apart b.size cs)
    (h : List.Forall₂ (fun c m => buildDmc { b with pos := c } = some m) cs ms) (p : V3)
    (hcover : ∀ v a, Crosses (field b) b.iso v a → Close v p → ∃ c ∈ cs, InChunk b.size c v) (q : V3) :
    (worldEdges ms).count (p, q) = (worldEdges ms).count (q, p) := by
  have hG := signed_anti p q
  have hp0 : ∀ v, (¬ ∃ c ∈ cs, InChunk b.size c v) → ∀ a i j, piece (signed p q) (field b) b.iso a i j v = 0 := by
    intro v hv a i j
    unfold piece
    by_cases hc : Crosses (field b) b.iso v a
    · have hncl : ¬ Close v p := fun hcl => hv (hcover v a hc hcl)
      have hne : ∀ i, qpos (field b) b.iso v a i ≠ p := fun i e => hncl (e ▸ qpos_close (field b) b.iso v a i)
      have : signed p q (qpos (field b) b.iso v a i) (qpos (field b) b.iso v a j) = 0 := by
        unfold signed
        simp [hne]
      rw [this, mul_zero]
    · rw [crosses_iff, not_not] at hc
      rw [hc, sub_self, zero_mul]
  have hfin : ∀ a i j, (Function.support (piece (signed p q) (field b) b.iso a i j)).Finite := by
    intro a i j
    refine Set.Finite.subset (List.finite_toSet ((cs.flatMap fun c => jobs b.size c b.size).map Prod.fst)) ?_
    intro v hv
    by_contra hno
    refine hv (hp0 v (fun hc => hno ?_) a i j)
    exact List.mem_map.mpr ⟨(v, .x), mem_all.mpr hc, rfl⟩
  have h1 := world_wsum hG b h
  rw [sum_jobs hcs (fun v a => term (signed p q) (field b) b.iso v a) (fun v hv a => by
    rw [term_pieces, hp0 v hv, hp0 v hv, hp0 v hv, hp0 v hv]; rfl), total_zero hG (field b) b.iso hfin, wsum_signed] at h1
  omega

theorem closed_of_count {e : List (V3 × V3)} (h : ∀ p q, (open Classical in e.count (p, q)) = (open Classical in e.count (q, p))) : Closed e := by
  classical
  unfold Closed
  rw [List.perm_iff_count]
  rintro ⟨p, q⟩
  have e1 : (e.map Prod.swap).count (p, q) = e.count (q, p) := by
    have := List.count_map_of_injective e Prod.swap Prod.swap_injective (q, p)
    simpa using this
  rw [e1]
  convert h p q

end FastNoise.Mesh
