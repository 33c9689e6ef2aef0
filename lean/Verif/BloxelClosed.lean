import Verif.BloxelChunk
import Verif.MeshWorld

/-! The block mesh is closed: signed sums over directed edges vanish. -/

namespace FastNoise.Mesh

/-- Position of a face corner. -/
noncomputable def fpos (j : VFace) (i : Nat) : V3 := (fcorner j i).toV

open Classical in
/-- 1 for an exposed face, 0 otherwise. -/
noncomputable def exposed (f : I3 → ℝ) (iso : ℝ) (j : VFace) : ℤ := if Exposed f iso j then 1 else 0

theorem exposed_eq (f : I3 → ℝ) (iso : ℝ) (v : I3) (a : Axis) (s : Bool) : exposed f iso (v, a, s) = sol f iso v * (1 - sol f iso (v.side a s)) := by
  unfold exposed Exposed sol bsol air
  simp only
  by_cases h1 : iso < f v <;> by_cases h2 : iso < f (v.side a s) <;> simp [h1, h2, not_le.mpr, not_lt.mp]

/-- Weight of a face. -/
noncomputable def fterm (G : V3 → V3 → ℤ) (f : I3 → ℝ) (iso : ℝ) (j : VFace) : ℤ := exposed f iso j * loop G (fpos j)

theorem face_wsum {G : V3 → V3 → ℤ} (hG : Anti G) {f : I3 → ℝ} {iso : ℝ} {j : VFace} {T : List (V3 × ℝ)} (h : FaceAt f iso j T) :
    3 ∣ T.length ∧ wsum G (directedEdges (T.map Prod.fst)) = fterm G f iso j := by
  unfold FaceAt at h
  unfold fterm exposed
  by_cases hc : Exposed f iso j
  · rw [if_pos hc] at h
    obtain ⟨r, hr, rfl⟩ := h
    refine ⟨by simp [quadOf], ?_⟩
    rw [if_pos hc]
    have e : (List.map Prod.fst (quadOf (fun i => ((fcorner j i).toV, shade f iso j (fcorner j i))) 0 r)) = quadOf (fpos j) 0 r := by
      rcases hr with rfl | rfl <;> rfl
    rw [e]
    generalize fpos j = q
    have a1 := hG (q 0) (q 3); have a2 := hG (q 1) (q 2); have a3 := hG (q 0) (q 1); have a4 := hG (q 1) (q 3)
    have a5 := hG (q 3) (q 2); have a6 := hG (q 2) (q 0)
    rcases hr with rfl | rfl <;> simp [quadOf, directedEdges, wsum, loop] <;> linarith
  · rw [if_neg hc] at h ⊢
    subst h
    simp [directedEdges, wsum]

theorem asm_wsum {G : V3 → V3 → ℤ} (hG : Anti G) {f : I3 → ℝ} {iso : ℝ} {l : List VFace} {T : List (V3 × ℝ)} (h : Asm (FaceAt f iso) l T) :
    3 ∣ T.length ∧ wsum G (directedEdges (T.map Prod.fst)) = (l.map fun j => fterm G f iso j).sum := by
  induction h with
  | nil => simp [directedEdges, wsum]
  | snoc _ hq ih =>
    obtain ⟨h1, h2⟩ := face_wsum hG hq
    refine ⟨by rw [List.length_append]; exact dvd_add ih.1 h1, ?_⟩
    rw [List.map_append, directedEdges_append _ _ (by simpa using ih.1), wsum_append, ih.2, h2]
    simp

/-! ### Rearranging -/

/-- One side of the square between `v` and its neighbour, weighted by which of the two is solid. -/
noncomputable def fpiece (G : V3 → V3 → ℤ) (f : I3 → ℝ) (iso : ℝ) (a : Axis) (i j : Nat) (v : I3) : ℤ :=
  (sol f iso v - sol f iso (v.next a)) * G (fpos (v, a, true) i) (fpos (v, a, true) j)

theorem fpos_back (v : I3) (a : Axis) : fpos (v.next a, a, false) 0 = fpos (v, a, true) 1 ∧ fpos (v.next a, a, false) 1 = fpos (v, a, true) 0 ∧
    fpos (v.next a, a, false) 2 = fpos (v, a, true) 3 ∧ fpos (v.next a, a, false) 3 = fpos (v, a, true) 2 := by
  cases a <;> simp [fpos, fcorner, I3.plus, I3.next]

theorem loop_back {G : V3 → V3 → ℤ} (hG : Anti G) (v : I3) (a : Axis) :
    loop G (fpos (v.next a, a, false)) = - loop G (fpos (v, a, true)) := by
  obtain ⟨h0, h1, h2, h3⟩ := fpos_back v a
  unfold loop
  rw [h0, h1, h2, h3]
  linarith [hG (fpos (v, a, true) 1) (fpos (v, a, true) 0), hG (fpos (v, a, true) 0) (fpos (v, a, true) 2),
    hG (fpos (v, a, true) 2) (fpos (v, a, true) 3), hG (fpos (v, a, true) 3) (fpos (v, a, true) 1)]

theorem side_next (v : I3) (a : Axis) : (v.next a).side a false = v ∧ v.side a true = v.next a := by
  cases a <;> simp [I3.side, I3.next]

theorem two_terms {G : V3 → V3 → ℤ} (hG : Anti G) (f : I3 → ℝ) (iso : ℝ) (a : Axis) (v : I3) :
    fterm G f iso (v, a, true) + fterm G f iso (v.next a, a, false) =
      fpiece G f iso a 0 1 v + fpiece G f iso a 1 3 v + fpiece G f iso a 3 2 v + fpiece G f iso a 2 0 v := by
  unfold fterm
  rw [exposed_eq, exposed_eq, loop_back hG, (side_next v a).1, (side_next v a).2]
  unfold fpiece loop
  ring

theorem edge_zero {G : V3 → V3 → ℤ} (hG : Anti G) (f : I3 → ℝ) (iso : ℝ) (u : I3) :
    fpiece G f iso .x 1 3 u + fpiece G f iso .x 2 0 (u.next .y) + fpiece G f iso .y 0 1 (u.next .x) + fpiece G f iso .y 3 2 u = 0 ∧
    fpiece G f iso .y 1 3 u + fpiece G f iso .y 2 0 (u.next .z) + fpiece G f iso .z 0 1 (u.next .y) + fpiece G f iso .z 3 2 u = 0 ∧
    fpiece G f iso .z 1 3 u + fpiece G f iso .z 2 0 (u.next .x) + fpiece G f iso .x 0 1 (u.next .z) + fpiece G f iso .x 3 2 u = 0 := by
  obtain ⟨x, y, z⟩ := u
  simp only [fpiece, fpos, fcorner, I3.plus, I3.next, I3.toV, List.getD_cons_zero, List.getD_cons_succ, add_zero]
  refine ⟨?_, ?_, ?_⟩
  · have h := hG ⟨((x + 1 : ℤ) : ℝ), ((y + 1 : ℤ) : ℝ), (z : ℝ)⟩ ⟨((x + 1 : ℤ) : ℝ), ((y + 1 : ℤ) : ℝ), ((z + 1 : ℤ) : ℝ)⟩
    rw [h]; ring
  · have h := hG ⟨(x : ℝ), ((y + 1 : ℤ) : ℝ), ((z + 1 : ℤ) : ℝ)⟩ ⟨((x + 1 : ℤ) : ℝ), ((y + 1 : ℤ) : ℝ), ((z + 1 : ℤ) : ℝ)⟩
    rw [h]; ring
  · have h := hG ⟨((x + 1 : ℤ) : ℝ), (y : ℝ), ((z + 1 : ℤ) : ℝ)⟩ ⟨((x + 1 : ℤ) : ℝ), ((y + 1 : ℤ) : ℝ), ((z + 1 : ℤ) : ℝ)⟩
    rw [h]; ring

theorem add4 (g1 g2 g3 g4 : I3 → ℤ) (h1 : g1.support.Finite) (h2 : g2.support.Finite) (h3 : g3.support.Finite) (h4 : g4.support.Finite) :
    ∑ᶠ v, (g1 v + g2 v + g3 v + g4 v) = ∑ᶠ v, g1 v + ∑ᶠ v, g2 v + ∑ᶠ v, g3 v + ∑ᶠ v, g4 v ∧
      (Function.support fun v => g1 v + g2 v + g3 v + g4 v).Finite := by
  have h12 : (Function.support fun v => g1 v + g2 v).Finite := (h1.union h2).subset (Function.support_add _ _)
  have h123 : (Function.support fun v => g1 v + g2 v + g3 v).Finite := (h12.union h3).subset (Function.support_add _ _)
  have h1234 : (Function.support fun v => g1 v + g2 v + g3 v + g4 v).Finite := (h123.union h4).subset (Function.support_add _ _)
  exact ⟨by rw [finsum_add_distrib h123 h4, finsum_add_distrib h12 h3, finsum_add_distrib h1 h2], h1234⟩

/-- If only finitely many faces and sides have weight, the total weight is zero. -/
theorem faces_zero {G : V3 → V3 → ℤ} (hG : Anti G) (f : I3 → ℝ) (iso : ℝ)
    (ht : ∀ a s, (Function.support fun v => fterm G f iso (v, a, s)).Finite)
    (hfin' : ∀ a i j, i < 4 → j < 4 → (Function.support (fpiece G f iso a i j)).Finite) :
    ∑ᶠ v, ((fterm G f iso (v, .x, true) + fterm G f iso (v, .x, false)) + (fterm G f iso (v, .y, true) + fterm G f iso (v, .y, false)) +
      (fterm G f iso (v, .z, true) + fterm G f iso (v, .z, false))) = 0 := by
  have hfin : ∀ a (i j : Fin 4), (Function.support (fpiece G f iso a i j)).Finite := fun a i j => hfin' a i j i.2 j.2
  have sh : ∀ a (i j : Fin 4) b, (Function.support fun v : I3 => fpiece G f iso a i j (v.next b)).Finite := fun a i j b =>
    (hfin a i j).preimage (nextEquiv b).injective.injOn
  have two : ∀ a, ∑ᶠ v, (fterm G f iso (v, a, true) + fterm G f iso (v, a, false)) =
      ∑ᶠ v, fpiece G f iso a 0 1 v + ∑ᶠ v, fpiece G f iso a 1 3 v + ∑ᶠ v, fpiece G f iso a 3 2 v + ∑ᶠ v, fpiece G f iso a 2 0 v := by
    intro a
    have hs : (Function.support fun v : I3 => fterm G f iso (v.next a, a, false)).Finite := (ht a false).preimage (nextEquiv a).injective.injOn
    rw [finsum_add_distrib (ht a true) (ht a false), finsum_next (fun v => fterm G f iso (v, a, false)) a, ← finsum_add_distrib (ht a true) hs]
    simp only [two_terms hG]
    exact (add4 _ _ _ _ (hfin a 0 1) (hfin a 1 3) (hfin a 3 2) (hfin a 2 0)).1
  have s2 : ∀ a, (Function.support fun v => fterm G f iso (v, a, true) + fterm G f iso (v, a, false)).Finite := fun a =>
    ((ht a true).union (ht a false)).subset (Function.support_add _ _)
  have hxy := ((s2 .x).union (s2 .y)).subset (Function.support_add _ _)
  rw [finsum_add_distrib hxy (s2 .z), finsum_add_distrib (s2 .x) (s2 .y), two, two, two]
  have z1 := (add4 _ _ _ _ (hfin .x 1 3) (sh .x 2 0 .y) (sh .y 0 1 .x) (hfin .y 3 2)).1
  have z2 := (add4 _ _ _ _ (hfin .y 1 3) (sh .y 2 0 .z) (sh .z 0 1 .y) (hfin .z 3 2)).1
  have z3 := (add4 _ _ _ _ (hfin .z 1 3) (sh .z 2 0 .x) (sh .x 0 1 .z) (hfin .x 3 2)).1
  simp only [show ((0 : Fin 4) : Nat) = 0 from rfl, show ((1 : Fin 4) : Nat) = 1 from rfl, show ((2 : Fin 4) : Nat) = 2 from rfl,
    show ((3 : Fin 4) : Nat) = 3 from rfl, (edge_zero hG f iso _).1, (edge_zero hG f iso _).2.1, (edge_zero hG f iso _).2.2, finsum_zero] at z1 z2 z3
  rw [finsum_next (fpiece G f iso .x 2 0) .y, finsum_next (fpiece G f iso .y 0 1) .x, finsum_next (fpiece G f iso .y 2 0) .z,
    finsum_next (fpiece G f iso .z 0 1) .y, finsum_next (fpiece G f iso .z 2 0) .x, finsum_next (fpiece G f iso .x 0 1) .z]
  linarith

/-! ### Many chunks -/

/-- All faces of the voxels of the chunks. -/
def allFaces (n : Nat) (cs : List I3) : List VFace := cs.flatMap fun c => (scan n c n).flatMap voxelJobs

theorem mem_allFaces {n : Nat} {cs : List I3} {j : VFace} : j ∈ allFaces n cs ↔ ∃ c ∈ cs, InChunk n c j.1 := by
  simp only [allFaces, List.mem_flatMap, mem_scan, mem_voxelJobs]
  constructor
  · rintro ⟨c, hc, v, hv, rfl⟩; exact ⟨c, hc, hv⟩
  · rintro ⟨c, hc, hv⟩; exact ⟨c, hc, _, hv, rfl⟩

/-- The sum over all faces of the chunks as a sum over the lattice. -/
theorem sum_faces {n : Nat} {cs : List I3} (h : Apart n cs) (t : VFace → ℤ) (h0 : ∀ v, (¬ ∃ c ∈ cs, InChunk n c v) → ∀ a s, t (v, a, s) = 0) :
    ((allFaces n cs).map t).sum = ∑ᶠ v, ((t (v, .x, true) + t (v, .x, false)) + (t (v, .y, true) + t (v, .y, false)) + (t (v, .z, true) + t (v, .z, false))) := by
  have e : ((allFaces n cs).map t).sum = ((cs.flatMap fun c => jobs n c n).map fun p => t (p.1, p.2, true) + t (p.1, p.2, false)).sum := by
    have hn : (allFaces n cs).Nodup := by
      unfold allFaces
      rw [List.nodup_flatMap]
      refine ⟨fun c _ => bjobs_nodup n c, h.imp ?_⟩
      intro c c' hcc
      simp only [Function.onFun, List.disjoint_left, List.mem_flatMap, mem_scan, mem_voxelJobs]
      rintro j ⟨v, hv, rfl⟩ ⟨v', hv', e⟩
      exact hcc _ ⟨hv, e ▸ hv'⟩
    rw [← List.sum_toFinset _ hn, ← List.sum_toFinset _ (all_nodup h)]
    have hF : (allFaces n cs).toFinset = ((cs.flatMap fun c => jobs n c n).toFinset ×ˢ ({true, false} : Finset Bool)).image fun p => (p.1.1, p.1.2, p.2) := by
      ext ⟨v, a, s⟩
      simp only [List.mem_toFinset, mem_allFaces, Finset.mem_image, Finset.mem_product, Prod.exists, mem_all, Prod.mk.injEq]
      constructor
      · intro h'; exact ⟨v, a, s, ⟨h', by cases s <;> simp⟩, rfl, rfl, rfl⟩
      · rintro ⟨v', a', s', ⟨h', _⟩, rfl, rfl, rfl⟩; exact h'
    rw [hF, Finset.sum_image, Finset.sum_product]
    · apply Finset.sum_congr rfl
      intro p _
      rw [Finset.sum_insert (by simp), Finset.sum_singleton]
    · rintro ⟨⟨v, a⟩, s⟩ _ ⟨⟨v', a'⟩, s'⟩ _ e
      simp only [Prod.mk.injEq] at e ⊢
      exact ⟨⟨e.1, e.2.1⟩, e.2.2⟩
  rw [e, sum_jobs h (fun v a => t (v, a, true) + t (v, a, false)) (fun v hv a => by rw [h0 v hv, h0 v hv]; rfl)]

theorem fpos_close (v : I3) (a : Axis) (s : Bool) (i : Nat) : Close v (fpos (v, a, s) i) := by
  unfold Close fpos I3.toV fcorner I3.plus
  rcases i with _ | _ | _ | _ | i <;> cases a <;> cases s <;> simp

theorem bworld_wsum {G : V3 → V3 → ℤ} (hG : Anti G) (b : Build) {cs : List I3} {ms : List (List (V3 × ℝ) × List Nat)}
    (h : List.Forall₂ (fun c m => buildBloxel { b with pos := c } = some m) cs ms) :
    wsum G (worldEdges ms) = ((allFaces b.size cs).map (fterm G (field b) b.iso)).sum := by
  induction h with
  | nil => simp [worldEdges, wsum, allFaces]
  | @cons c m cs ms hc _ ih =>
    obtain ⟨m', hm, _, ha⟩ := buildBloxel_spec { b with pos := c }
    rw [hc] at hm
    cases hm
    have h1 := (asm_wsum hG ha).2
    have h2 : cornersOf m = (litCorners m).map Prod.fst := by
      simp only [cornersOf, litCorners, List.map_filterMap]
    rw [show worldEdges (m :: ms) = directedEdges (cornersOf m) ++ worldEdges ms by simp [worldEdges], wsum_append, ih, h2, h1]
    rw [allFaces, allFaces, List.flatMap_cons, List.map_append, List.sum_append]
    rfl

open Classical in
theorem bworld_balanced (b : Build) {cs : List I3} {ms : List (List (V3 × ℝ) × List Nat)} (hcs : Apart b.size cs)
    (h : List.Forall₂ (fun c m => buildBloxel { b with pos := c } = some m) cs ms) (p : V3)
    (hcover : ∀ j : VFace, Exposed (field b) b.iso j → Close j.1 p → ∃ c ∈ cs, InChunk b.size c j.1) (q : V3) :
    (worldEdges ms).count (p, q) = (worldEdges ms).count (q, p) := by
  have hG := signed_anti p q
  have key : ∀ v a s i j, ¬ Close v p → signed p q (fpos (v, a, s) i) (fpos (v, a, s) j) = 0 := by
    intro v a s i j hncl
    have hne : ∀ i, fpos (v, a, s) i ≠ p := fun i e => hncl (e ▸ fpos_close v a s i)
    unfold signed
    simp [hne]
  have ht0 : ∀ v, (¬ ∃ c ∈ cs, InChunk b.size c v) → ∀ a s, fterm (signed p q) (field b) b.iso (v, a, s) = 0 := by
    intro v hv a s
    unfold fterm exposed
    by_cases hc : Exposed (field b) b.iso (v, a, s)
    · have hncl : ¬ Close v p := fun hcl => hv (hcover _ hc hcl)
      unfold loop
      rw [key _ _ _ _ _ hncl, key _ _ _ _ _ hncl, key _ _ _ _ _ hncl, key _ _ _ _ _ hncl]
      simp
    · rw [if_neg hc, zero_mul]
  have hF : {v | ∃ c ∈ cs, InChunk b.size c v}.Finite := by
    refine Set.Finite.subset (List.finite_toSet ((allFaces b.size cs).map Prod.fst)) ?_
    intro v hv
    exact List.mem_map.mpr ⟨(v, .x, true), mem_allFaces.mpr hv, rfl⟩
  have ht : ∀ a s, (Function.support fun v => fterm (signed p q) (field b) b.iso (v, a, s)).Finite := by
    intro a s
    refine hF.subset ?_
    intro v hv
    by_contra hno
    exact hv (ht0 v hno a s)
  have hfin : ∀ a i j, i < 4 → j < 4 → (Function.support (fpiece (signed p q) (field b) b.iso a i j)).Finite := by
    intro a i j hi hj
    refine (hF.union (hF.preimage (nextEquiv a).injective.injOn)).subset ?_
    intro v hv
    by_contra hno
    rw [Set.mem_union, not_or] at hno
    obtain ⟨n1, n2⟩ := hno
    apply hv
    unfold fpiece
    have e1 := exposed_eq (field b) b.iso v a true
    have e2 := exposed_eq (field b) b.iso (v.next a) a false
    rw [(side_next v a).2] at e1
    rw [(side_next v a).1] at e2
    by_cases hc1 : Exposed (field b) b.iso (v, a, true)
    · rw [key _ _ _ _ _ (fun hcl => n1 (hcover _ hc1 hcl)), mul_zero]
    · by_cases hc2 : Exposed (field b) b.iso (v.next a, a, false)
      · have hncl : ¬ Close (v.next a) p := fun hcl => n2 (hcover _ hc2 hcl)
        have hne : ∀ i < 4, fpos (v, a, true) i ≠ p := by
          intro i hi e
          obtain ⟨b0, b1, b2, b3⟩ := fpos_back v a
          have : i = 0 ∨ i = 1 ∨ i = 2 ∨ i = 3 := by omega
          rcases this with rfl | rfl | rfl | rfl
          · exact hncl (e ▸ b1 ▸ fpos_close _ _ _ _)
          · exact hncl (e ▸ b0 ▸ fpos_close _ _ _ _)
          · exact hncl (e ▸ b3 ▸ fpos_close _ _ _ _)
          · exact hncl (e ▸ b2 ▸ fpos_close _ _ _ _)
        unfold signed
        simp [hne i hi, hne j hj]
      · simp only [exposed, hc1, hc2, if_false] at e1 e2
        have : sol (field b) b.iso v - sol (field b) b.iso (v.next a) = 0 := by linarith
        rw [this, zero_mul]
  have h1 := bworld_wsum hG b h
  rw [sum_faces hcs _ ht0, faces_zero hG (field b) b.iso ht hfin, wsum_signed] at h1
  omega

end FastNoise.Mesh
