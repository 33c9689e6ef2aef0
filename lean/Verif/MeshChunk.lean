import Verif.MeshQuad

/-! The mesh of one chunk: one quad per crossed lattice edge. -/

namespace FastNoise.Mesh

theorem forN_inv {σ : Type} (P : Nat → σ → Prop) (f : Nat → σ → Option σ) (n : Nat) (s : σ) (h0 : P 0 s)
    (hstep : ∀ i < n, ∀ s, P i s → ∃ s', f i s = some s' ∧ P (i + 1) s') : ∃ s', forN f n s = some s' ∧ P n s' := by
  induction n with
  | zero => exact ⟨s, rfl, h0⟩
  | succ n ih =>
    obtain ⟨s', h, hp⟩ := ih (fun i hi => hstep i (by omega))
    obtain ⟨s'', h', hp'⟩ := hstep n (by omega) s' hp
    exact ⟨s'', by simp only [forN, h, Option.bind_some, h'], hp'⟩

/-- The quads of a list of lattice edges, in order. -/
inductive Assembled (f : I3 → ℝ) (iso : ℝ) : List (I3 × Axis) → List V3 → Prop
  | nil : Assembled f iso [] []
  | snoc {l T v a T'} : Assembled f iso l T → QuadAt f iso v a T' → Assembled f iso (l ++ [(v, a)]) (T ++ T')

def jobCell (c : I3) (z y x : Nat) : List (I3 × Axis) :=
  let v : I3 := ⟨c.x + x, c.y + y, c.z + z⟩
  [(v, .x), (v, .y), (v, .z)]
def jobRow (c : I3) (z y n : Nat) : List (I3 × Axis) := (List.range n).flatMap (jobCell c z y)
def jobSlab (k : Nat) (c : I3) (z n : Nat) : List (I3 × Axis) := (List.range n).flatMap fun y => jobRow c z y k
def jobs (k : Nat) (c : I3) (n : Nat) : List (I3 × Axis) := (List.range n).flatMap fun z => jobSlab k c z k

theorem jobRow_succ (c : I3) (z y n : Nat) : jobRow c z y (n + 1) = jobRow c z y n ++ jobCell c z y n := by
  simp [jobRow, List.range_succ]
theorem jobSlab_succ (k : Nat) (c : I3) (z n : Nat) : jobSlab k c z (n + 1) = jobSlab k c z n ++ jobRow c z n k := by
  simp [jobSlab, List.range_succ]
theorem jobs_succ (k : Nat) (c : I3) (n : Nat) : jobs k c (n + 1) = jobs k c n ++ jobSlab k c n k := by
  simp [jobs, List.range_succ]

/-- State of the loops after the jobs `l`, with the cell index at coordinates `x y z`. -/
def At (b : Build) (S : Nat) (l : List (I3 × Axis)) (x y z : Nat) (s : Loop) : Prop :=
  Good b S s.1 ∧ Assembled (field b) b.iso l (cornersOf (s.1.1.data, s.1.2)) ∧ s.2 = idx S x y z

theorem cell_step (b : Build) {x y z : Nat} (hx : x < b.size) (hy : y < b.size) (hz : z < b.size) {l : List (I3 × Axis)} {s : Loop}
    (h : At b (b.size + 4) l (x + 2) (y + 2) (z + 2) s) :
    ∃ s', cellBody b (density b (b.size + 4) (-2)) (b.size + 4) z y x s = some s' ∧
      At b (b.size + 4) (l ++ jobCell b.pos z y x) (x + 3) (y + 2) (z + 2) s' := by
  obtain ⟨hg, ha, hi⟩ := h
  obtain ⟨v, hv⟩ : ∃ v : I3, v = ⟨b.pos.x + x, b.pos.y + y, b.pos.z + z⟩ := ⟨_, rfl⟩
  have hv' : v = ⟨b.pos.x + (x + 2 : Nat) - 2, b.pos.y + (y + 2 : Nat) - 2, b.pos.z + (z + 2 : Nat) - 2⟩ := by
    rw [hv]; ext <;> simp only <;> push_cast <;> ring
  have hoff : (⟨((b.pos.x + x : ℤ) : ℝ), ((b.pos.y + y : ℤ) : ℝ), ((b.pos.z + z : ℤ) : ℝ)⟩ : V3) = v.toV := by rw [hv]; rfl
  obtain ⟨s1, e1, g1, T1, c1, q1⟩ := addQuad_spec b (S := b.size + 4) (by omega) (by omega) (by omega) (by omega) (by omega) (by omega) hv' .x hg
  obtain ⟨s2, e2, g2, T2, c2, q2⟩ := addQuad_spec b (S := b.size + 4) (by omega) (by omega) (by omega) (by omega) (by omega) (by omega) hv' .y g1
  obtain ⟨s3, e3, g3, T3, c3, q3⟩ := addQuad_spec b (S := b.size + 4) (by omega) (by omega) (by omega) (by omega) (by omega) (by omega) hv' .z g2
  refine ⟨(s3, s.2 + 1), ?_, g3, ?_, ?_⟩
  · unfold cellBody
    rw [hoff]; simp only; rw [hi, e1]; simp only [Option.bind_some]
    rw [e2]; simp only [Option.bind_some]
    rw [e3]; rfl
  · have := ((ha.snoc q1).snoc q2).snoc q3
    simp only [c3, c2, c1, jobCell, ← hv]
    simpa using this
  · simp only [hi]; unfold idx; ring

theorem row_spec (b : Build) {y z : Nat} (hy : y < b.size) (hz : z < b.size) {l : List (I3 × Axis)} {s : Loop}
    (h : At b (b.size + 4) l 2 (y + 2) (z + 2) s) :
    ∃ s', (forN (cellBody b (density b (b.size + 4) (-2)) (b.size + 4) z y) b.size s).map
        (fun s => (s.1, s.2 + 1 * (b.size + 4 - b.size))) = some s' ∧
      At b (b.size + 4) (l ++ jobRow b.pos z y b.size) 2 (y + 3) (z + 2) s' := by
  obtain ⟨s', e, hp⟩ := forN_inv (fun x s => At b (b.size + 4) (l ++ jobRow b.pos z y x) (x + 2) (y + 2) (z + 2) s)
    (cellBody b (density b (b.size + 4) (-2)) (b.size + 4) z y) b.size s (by simpa [jobRow] using h)
    (fun x hx s hs => by
      obtain ⟨s', e, h'⟩ := cell_step b hx hy hz hs
      exact ⟨s', e, by rw [jobRow_succ, ← List.append_assoc]; exact h'⟩)
  refine ⟨(s'.1, s'.2 + 1 * (b.size + 4 - b.size)), by rw [e]; rfl, hp.1, hp.2.1, ?_⟩
  have := hp.2.2
  simp only [this, show b.size + 4 - b.size = 4 by omega]; unfold idx; ring

theorem slab_spec (b : Build) {z : Nat} (hz : z < b.size) {l : List (I3 × Axis)} {s : Loop}
    (h : At b (b.size + 4) l 2 2 (z + 2) s) :
    ∃ s', (forN (fun y s => (forN (cellBody b (density b (b.size + 4) (-2)) (b.size + 4) z y) b.size s).map
        (fun s => (s.1, s.2 + 1 * (b.size + 4 - b.size)))) b.size s).map (fun s => (s.1, s.2 + (b.size + 4) * (b.size + 4 - b.size))) = some s' ∧
      At b (b.size + 4) (l ++ jobSlab b.size b.pos z b.size) 2 2 (z + 3) s' := by
  obtain ⟨s', e, hp⟩ := forN_inv (fun y s => At b (b.size + 4) (l ++ jobSlab b.size b.pos z y) 2 (y + 2) (z + 2) s)
    (fun y s => (forN (cellBody b (density b (b.size + 4) (-2)) (b.size + 4) z y) b.size s).map
        (fun s => (s.1, s.2 + 1 * (b.size + 4 - b.size)))) b.size s (by simpa [jobSlab] using h)
    (fun y hy s hs => by
      obtain ⟨s', e, h'⟩ := row_spec b hy hz hs
      exact ⟨s', e, by rw [jobSlab_succ, ← List.append_assoc]; exact h'⟩)
  refine ⟨(s'.1, s'.2 + (b.size + 4) * (b.size + 4 - b.size)), by rw [e]; rfl, hp.1, hp.2.1, ?_⟩
  have := hp.2.2
  simp only [this, show b.size + 4 - b.size = 4 by omega]; unfold idx; ring

theorem mem_jobs {k : Nat} {c : I3} {v : I3} {a : Axis} : (v, a) ∈ jobs k c k ↔ InChunk k c v := by
  simp only [jobs, jobSlab, jobRow, jobCell, List.mem_flatMap, List.mem_range, List.mem_cons, List.not_mem_nil, or_false, Prod.mk.injEq]
  constructor
  · rintro ⟨z, hz, y, hy, x, hx, h⟩
    obtain ⟨rfl, _⟩ | ⟨rfl, _⟩ | ⟨rfl, _⟩ := h <;> (unfold InChunk; simp only; omega)
  · rintro ⟨⟨h1, h2⟩, ⟨h3, h4⟩, ⟨h5, h6⟩⟩
    refine ⟨(v.z - c.z).toNat, by omega, (v.y - c.y).toNat, by omega, (v.x - c.x).toNat, by omega, ?_⟩
    have : v = ⟨c.x + (v.x - c.x).toNat, c.y + (v.y - c.y).toNat, c.z + (v.z - c.z).toNat⟩ := by
      ext <;> simp only <;> omega
    cases a
    · exact Or.inl ⟨this, rfl⟩
    · exact Or.inr (Or.inl ⟨this, rfl⟩)
    · exact Or.inr (Or.inr ⟨this, rfl⟩)

theorem assembled_nil {f : I3 → ℝ} {iso : ℝ} (l : List (I3 × Axis)) (h : ∀ p ∈ l, ¬ Crosses f iso p.1 p.2) : Assembled f iso l [] := by
  induction l using List.reverseRecOn with
  | nil => exact .nil
  | append_singleton l p ih =>
    have := (ih (fun q hq => h q (by simp [hq]))).snoc (v := p.1) (a := p.2) (T' := []) (by unfold QuadAt; rw [if_neg (h p (by simp))])
    simpa using this

theorem next_read (b : Build) {v : I3} (h : InChunk b.size b.pos v) (a : Axis) :
    (∃ i < (b.size + 4) * (b.size + 4) * (b.size + 4), density b (b.size + 4) (-2) i = field b v) ∧
    (∃ i < (b.size + 4) * (b.size + 4) * (b.size + 4), density b (b.size + 4) (-2) i = field b (v.next a)) := by
  have key : ∀ u : I3, (b.pos.x ≤ u.x ∧ u.x ≤ b.pos.x + b.size) ∧ (b.pos.y ≤ u.y ∧ u.y ≤ b.pos.y + b.size) ∧ (b.pos.z ≤ u.z ∧ u.z ≤ b.pos.z + b.size) →
      ∃ i < (b.size + 4) * (b.size + 4) * (b.size + 4), density b (b.size + 4) (-2) i = field b u := by
    rintro u ⟨⟨h1, h2⟩, ⟨h3, h4⟩, ⟨h5, h6⟩⟩
    refine ⟨idx (b.size + 4) (u.x - b.pos.x + 2).toNat (u.y - b.pos.y + 2).toNat (u.z - b.pos.z + 2).toNat, idx_lt (by omega) (by omega) (by omega), ?_⟩
    rw [density_eq, latt_idx b (-2) (by omega) (by omega)]
    congr 1
    ext <;> simp only <;> omega
  obtain ⟨⟨h1, h2⟩, ⟨h3, h4⟩, ⟨h5, h6⟩⟩ := h
  refine ⟨key v ⟨⟨h1, by omega⟩, ⟨h3, by omega⟩, ⟨h5, by omega⟩⟩, key _ ?_⟩
  cases a <;> (simp only [I3.next]; omega)

/-- The mesh of a chunk: never undefined, and exactly the quads of the lattice edges that start in the chunk. -/
theorem buildDmc_spec (b : Build) : ∃ m, buildDmc b = some m ∧ WellFormed m ∧
    Assembled (field b) b.iso (jobs b.size b.pos b.size) (cornersOf m) ∧ ∀ e ∈ m.1, VertexOf b (b.size + 4) e := by
  unfold buildDmc
  simp only
  by_cases hall : (∀ i < (b.size + 4) * (b.size + 4) * (b.size + 4), density b (b.size + 4) (-2) i > b.iso) ∨
      (∀ i < (b.size + 4) * (b.size + 4) * (b.size + 4), density b (b.size + 4) (-2) i < b.iso)
  · rw [if_pos hall]
    refine ⟨_, rfl, ⟨by simp, by simp⟩, assembled_nil _ ?_, by simp⟩
    rintro ⟨v, a⟩ hp
    obtain ⟨⟨i, hi, ei⟩, ⟨j, hj, ej⟩⟩ := next_read b (mem_jobs.mp hp) a
    unfold Crosses
    simp only
    rcases hall with h | h
    · have h1 := h i hi; have h2 := h j hj
      rw [ei] at h1; rw [ej] at h2
      rw [not_not]; constructor <;> intro <;> linarith
    · have h1 := h i hi; have h2 := h j hj
      rw [ei] at h1; rw [ej] at h2
      rw [not_not]; constructor <;> intro <;> linarith
  · rw [if_neg hall]
    obtain ⟨s', e, hp⟩ := forN_inv (fun z s => At b (b.size + 4) (jobs b.size b.pos z) 2 2 (z + 2) s)
      (fun z s => (forN (fun y s => (forN (cellBody b (density b (b.size + 4) (-2)) (b.size + 4) z y) b.size s).map
        (fun s => (s.1, s.2 + 1 * (b.size + 4 - b.size)))) b.size s).map (fun s => (s.1, s.2 + (b.size + 4) * (b.size + 4 - b.size))))
      b.size ((⟨[], []⟩, []), (1 + (b.size + 4) + (b.size + 4) * (b.size + 4)) * 2)
      (by
        refine ⟨⟨⟨fun key i h => by simp at h, fun e he => by simp at he⟩, by constructor <;> simp⟩, ?_, ?_⟩
        · simpa [jobs, cornersOf] using Assembled.nil
        · simp only; unfold idx; ring)
      (fun z hz s hs => by
        obtain ⟨s', e, h'⟩ := slab_spec b hz hs
        exact ⟨s', e, by rw [jobs_succ]; exact h'⟩)
    rw [e]
    exact ⟨_, rfl, hp.1.2, hp.2.1, hp.1.1.2⟩

end FastNoise.Mesh
