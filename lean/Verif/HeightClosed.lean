import Verif.HeightLemmas

/-! Neighbouring height map meshes fit together. -/

namespace FastNoise.Mesh

theorem patch_wsum {G : V3 → V3 → ℤ} (hG : Anti G) {b : HBuild} {u : ℤ × ℤ} {T : List (V3 × ℝ)} (h : PatchAt b u T) :
    3 ∣ T.length ∧ wsum G (directedEdges (T.map Prod.fst)) = loop G (hpos b u) := by
  obtain ⟨_, light, r, hr, rfl⟩ := h
  refine ⟨by simp [quadOf], ?_⟩
  have e : (List.map Prod.fst (quadOf (fun i => (hpos b u i, light)) 0 r)) = quadOf (hpos b u) 0 r := by
    rcases hr with rfl | rfl <;> rfl
  rw [e]
  generalize hpos b u = q
  have a1 := hG (q 0) (q 3); have a2 := hG (q 1) (q 2); have a3 := hG (q 0) (q 1); have a4 := hG (q 1) (q 3)
  have a5 := hG (q 3) (q 2); have a6 := hG (q 2) (q 0)
  rcases hr with rfl | rfl <;> simp [quadOf, directedEdges, wsum, loop] <;> linarith

theorem hasm_wsum {G : V3 → V3 → ℤ} (hG : Anti G) {b : HBuild} {l : List (ℤ × ℤ)} {T : List (V3 × ℝ)} (h : Asm (PatchAt b) l T) :
    3 ∣ T.length ∧ wsum G (directedEdges (T.map Prod.fst)) = (l.map fun u => loop G (hpos b u)).sum := by
  induction h with
  | nil => simp [directedEdges, wsum]
  | snoc _ hq ih =>
    obtain ⟨h1, h2⟩ := patch_wsum hG hq
    refine ⟨by rw [List.length_append]; exact dvd_add ih.1 h1, ?_⟩
    rw [List.map_append, directedEdges_append _ _ (by simpa using ih.1), wsum_append, ih.2, h2]
    simp

/-- The lattice squares of all chunks. -/
def allTiles (b : HBuild) (cs : List (ℤ × ℤ)) : List (ℤ × ℤ) := cs.flatMap fun c => htile { b with posX := c.1, posZ := c.2 } b.size

theorem mem_allTiles {b : HBuild} {cs : List (ℤ × ℤ)} {u : ℤ × ℤ} : u ∈ allTiles b cs ↔ ∃ c ∈ cs, InTile b.size c u := by
  simp only [allTiles, List.mem_flatMap]
  constructor
  · rintro ⟨c, hc, h⟩; exact ⟨c, hc, (mem_htile (b := { b with posX := c.1, posZ := c.2 })).mp h⟩
  · rintro ⟨c, hc, h⟩; exact ⟨c, hc, (mem_htile (b := { b with posX := c.1, posZ := c.2 })).mpr h⟩

theorem allTiles_nodup {b : HBuild} {cs : List (ℤ × ℤ)} (h : TilesApart b.size cs) : (allTiles b cs).Nodup := by
  unfold allTiles
  rw [List.nodup_flatMap]
  refine ⟨fun c _ => htile_nodup { b with posX := c.1, posZ := c.2 }, h.imp ?_⟩
  intro c c' hcc
  simp only [Function.onFun, List.disjoint_left]
  intro u h1 h2
  exact hcc u ⟨(mem_htile (b := { b with posX := c.1, posZ := c.2 })).mp h1, (mem_htile (b := { b with posX := c'.1, posZ := c'.2 })).mp h2⟩

theorem hworld_wsum {G : V3 → V3 → ℤ} (hG : Anti G) (b : HBuild) {cs : List (ℤ × ℤ)} {ms : List (List (V3 × ℝ) × List Nat)}
    (h : List.Forall₂ (fun c m => buildHeight { b with posX := c.1, posZ := c.2 } = some m) cs ms) :
    wsum G (worldEdges ms) = ((allTiles b cs).map fun u => loop G (hpos b u)).sum := by
  induction h with
  | nil => simp [worldEdges, wsum, allTiles]
  | @cons c m cs ms hc _ ih =>
    obtain ⟨m', hm, _, ha⟩ := buildHeight_spec { b with posX := c.1, posZ := c.2 }
    rw [hc] at hm
    cases hm
    have h1 := (hasm_wsum hG ha).2
    have h2 : cornersOf m = (litCorners m).map Prod.fst := by
      simp only [cornersOf, litCorners, List.map_filterMap]
    rw [show worldEdges (m :: ms) = directedEdges (cornersOf m) ++ worldEdges ms by simp [worldEdges], wsum_append, ih, h2, h1]
    rw [allTiles, allTiles, List.flatMap_cons, List.map_append, List.sum_append]
    rfl

def shiftX : ℤ × ℤ ≃ ℤ × ℤ where
  toFun u := (u.1 + 1, u.2)
  invFun u := (u.1 - 1, u.2)
  left_inv u := by simp
  right_inv u := by simp

def shiftZ : ℤ × ℤ ≃ ℤ × ℤ where
  toFun u := (u.1, u.2 + 1)
  invFun u := (u.1, u.2 - 1)
  left_inv u := by simp
  right_inv u := by simp

theorem tiles_zero {G : V3 → V3 → ℤ} (hG : Anti G) (b : HBuild)
    (hA : (Function.support fun u : ℤ × ℤ => G (terrain b u.1 u.2) (terrain b u.1 (u.2 + 1))).Finite)
    (hB : (Function.support fun u : ℤ × ℤ => G (terrain b u.1 u.2) (terrain b (u.1 + 1) u.2)).Finite) :
    ∑ᶠ u, loop G (hpos b u) = 0 := by
  set A : ℤ × ℤ → ℤ := fun u => G (terrain b u.1 u.2) (terrain b u.1 (u.2 + 1)) with hAd
  set B : ℤ × ℤ → ℤ := fun u => G (terrain b u.1 u.2) (terrain b (u.1 + 1) u.2) with hBd
  have e : ∀ u, loop G (hpos b u) = (A u - A (shiftX u)) + (B (shiftZ u) - B u) := by
    intro u
    simp only [loop, hpos, hAd, hBd, shiftX, shiftZ, Equiv.coe_fn_mk]
    rw [hG (terrain b (u.1 + 1) (u.2 + 1)), hG (terrain b (u.1 + 1) u.2) (terrain b u.1 u.2)]
    ring
  have hA' : (Function.support fun u => A (shiftX u)).Finite := hA.preimage shiftX.injective.injOn
  have hB' : (Function.support fun u => B (shiftZ u)).Finite := hB.preimage shiftZ.injective.injOn
  have s1 : (Function.support fun u => A u - A (shiftX u)).Finite := (hA.union hA').subset (Function.support_sub _ _)
  have s2 : (Function.support fun u => B (shiftZ u) - B u).Finite := (hB'.union hB).subset (Function.support_sub _ _)
  rw [finsum_congr e, finsum_add_distrib s1 s2, finsum_sub_distrib hA hA', finsum_sub_distrib hB' hB, finsum_comp_equiv shiftX, finsum_comp_equiv shiftZ]
  ring

open Classical in
theorem hworld_balanced (b : HBuild) {cs : List (ℤ × ℤ)} {ms : List (List (V3 × ℝ) × List Nat)} (hcs : TilesApart b.size cs)
    (h : List.Forall₂ (fun c m => buildHeight { b with posX := c.1, posZ := c.2 } = some m) cs ms) (p : V3)
    (hcover : ∀ u : ℤ × ℤ, |(u.1 : ℝ) - p.x| ≤ 1 → |(u.2 : ℝ) - p.z| ≤ 1 → ∃ c ∈ cs, InTile b.size c u) (q : V3) :
    (worldEdges ms).count (p, q) = (worldEdges ms).count (q, p) := by
  have hG := signed_anti p q
  have key : ∀ u : ℤ × ℤ, (¬ ∃ c ∈ cs, InTile b.size c u) → ∀ i, hpos b u i ≠ p := by
    intro u hu i e
    apply hu
    apply hcover
    · rw [← e]; rcases i with _ | _ | _ | i <;> simp [hpos, terrain]
    · rw [← e]; rcases i with _ | _ | _ | i <;> simp [hpos, terrain]
  have hsig : ∀ x y : V3, x ≠ p → y ≠ p → signed p q x y = 0 := by
    intro x y hx hy
    unfold signed
    simp [hx, hy]
  have hF : {u | ∃ c ∈ cs, InTile b.size c u}.Finite := by
    refine Set.Finite.subset (List.finite_toSet (allTiles b cs)) ?_
    intro u hu
    exact mem_allTiles.mpr hu
  have hA : (Function.support fun u : ℤ × ℤ => signed p q (terrain b u.1 u.2) (terrain b u.1 (u.2 + 1))).Finite := by
    refine hF.subset fun u hu => ?_
    by_contra hno
    exact hu (hsig _ _ (key u hno 0) (key u hno 1))
  have hB : (Function.support fun u : ℤ × ℤ => signed p q (terrain b u.1 u.2) (terrain b (u.1 + 1) u.2)).Finite := by
    refine hF.subset fun u hu => ?_
    by_contra hno
    exact hu (hsig _ _ (key u hno 0) (key u hno 2))
  have h1 := hworld_wsum hG b h
  rw [← List.sum_toFinset _ (allTiles_nodup hcs), ← finsum_eq_sum_of_support_subset (s := (allTiles b cs).toFinset), tiles_zero hG b hA hB, wsum_signed] at h1
  · omega
  · intro u hu
    by_contra hno
    apply hu
    have hno' : ¬ ∃ c ∈ cs, InTile b.size c u := by
      intro hc; apply hno; rw [Finset.mem_coe, List.mem_toFinset]; exact mem_allTiles.mpr hc
    show loop _ _ = 0
    unfold loop
    rw [hsig _ _ (key u hno' 0) (key u hno' 1), hsig _ _ (key u hno' 1) (key u hno' 3), hsig _ _ (key u hno' 3) (key u hno' 2), hsig _ _ (key u hno' 2) (key u hno' 0)]
    rfl

end FastNoise.Mesh
