import Verif.BloxelLemmas
import Verif.MeshWorld

/-! The block mesh of a chunk and of many chunks. -/

namespace FastNoise.Mesh

theorem tryFaces_spec (b : Build) {S x y z : Nat} (hx : 1 ≤ x ∧ x + 1 < S) (hy : 1 ≤ y ∧ y + 1 < S) (hz : 1 ≤ z ∧ z + 1 < S)
    {v : I3} (hv : v = ⟨b.pos.x + x - 1, b.pos.y + y - 1, b.pos.z + z - 1⟩) (hsol : field b v ≤ b.iso) {Fs : List Face} {as : List (Axis × Bool)}
    (h : List.Forall₂ (fun F (as : Axis × Bool) => ∃ n α β, Describes F S as.1 as.2 n α β) Fs as) :
    ∀ {m : List (V3 × ℝ) × List Nat} {l : List VFace}, WellFormed m → Asm (FaceAt (field b) b.iso) l (litCorners m) →
    ∃ m', tryFaces (density b S (-1)) (S * S * S) b.iso (idx S x y z) v.toV Fs m = some m' ∧ WellFormed m' ∧
      Asm (FaceAt (field b) b.iso) (l ++ as.map fun p => (v, p)) (litCorners m') := by
  induction h with
  | nil => intro m l hm ha; exact ⟨m, rfl, hm, by simpa using ha⟩
  | @cons F p Fs as hF _ ih =>
    intro m l hm ha
    obtain ⟨n, α, β, hD⟩ := hF
    obtain ⟨m1, e1, w1, T, c1, f1⟩ := tryFace_spec b hx hy hz hv hD hsol hm
    obtain ⟨m2, e2, w2, a2⟩ := ih (l := l ++ [(v, p)]) w1 (by rw [c1]; exact ha.snoc f1)
    refine ⟨m2, by simp only [tryFaces]; rw [e1]; exact e2, w2, ?_⟩
    simpa using a2

theorem asm_empty {J C : Type} {Q : J → List C → Prop} (l : List J) (h : ∀ j ∈ l, Q j []) : ∀ {l0 T}, Asm Q l0 T → Asm Q (l0 ++ l) T := by
  induction l with
  | nil => intro l0 T ha; simpa using ha
  | cons j l ih =>
    intro l0 T ha
    have := ih (fun j' hj' => h j' (by simp [hj'])) (ha.snoc (h j (by simp)))
    simpa using this

/-- The state after the voxels `l`. -/
def BAt (b : Build) (S : Nat) (l : List I3) (x y z : Nat) (s : BLoop) : Prop :=
  WellFormed s.1 ∧ Asm (FaceAt (field b) b.iso) (l.flatMap voxelJobs) (litCorners s.1) ∧ s.2 = (idx S x y z : Nat)

theorem voxel_step (b : Build) {x y z : Nat} (hx : x < b.size) (hy : y < b.size) (hz : z < b.size) {l : List I3} {s : BLoop}
    (h : BAt b (b.size + 2) l (x + 1) (y + 1) (z + 1) s) :
    ∃ s', voxelBody b (density b (b.size + 2) (-1)) (b.size + 2) z y x s = some s' ∧
      BAt b (b.size + 2) (l ++ [⟨b.pos.x + x, b.pos.y + y, b.pos.z + z⟩]) (x + 2) (y + 1) (z + 1) s' := by
  obtain ⟨hw, ha, hi⟩ := h
  obtain ⟨v, hv⟩ : ∃ v : I3, v = ⟨b.pos.x + x, b.pos.y + y, b.pos.z + z⟩ := ⟨_, rfl⟩
  have hv' : v = ⟨b.pos.x + (x + 1 : Nat) - 1, b.pos.y + (y + 1 : Nat) - 1, b.pos.z + (z + 1 : Nat) - 1⟩ := by
    rw [hv]; ext <;> simp only <;> push_cast <;> ring
  have hbase : (⟨x + (b.pos.x : ℝ), y + (b.pos.y : ℝ), z + (b.pos.z : ℝ)⟩ : V3) = v.toV := by
    rw [hv]; ext <;> simp only [I3.toV] <;> push_cast <;> ring
  have rV := at_small b (S := b.size + 2) (x := x + 1) (y := y + 1) (z := z + 1) (by omega) (by omega) (by omega) hv' (w := ⟨0, 0, 0⟩) (by simp [Small])
    (i := (idx (b.size + 2) (x + 1) (y + 1) (z + 1) : ℤ)) (by simp [lin])
  rw [show v.plus ⟨0, 0, 0⟩ = v by simp [I3.plus]] at rV
  rw [← hv]
  have hnext : ((idx (b.size + 2) (x + 1) (y + 1) (z + 1) : Nat) : ℤ) + 1 = (idx (b.size + 2) (x + 2) (y + 1) (z + 1) : Nat) := by
    unfold idx; push_cast; ring
  unfold voxelBody
  rw [hi, if_pos (by intro i hi; rw [List.mem_singleton] at hi; rw [hi]; exact rV.1), rV.2, hbase]
  have hj : (l ++ [v]).flatMap voxelJobs = l.flatMap voxelJobs ++ voxelJobs v := by simp
  by_cases hs : field b v ≤ b.iso
  · rw [if_pos hs]
    obtain ⟨m', e, w, a⟩ := tryFaces_spec b (S := b.size + 2) (x := x + 1) (y := y + 1) (z := z + 1) (by omega) (by omega) (by omega) hv' hs
      (faces_describe _) hw ha
    exact ⟨_, by rw [e]; rfl, w, by rw [hj]; exact a, hnext⟩
  · rw [if_neg hs]
    refine ⟨_, rfl, hw, ?_, hnext⟩
    rw [hj]
    refine asm_empty _ ?_ ha
    intro j hj
    unfold FaceAt
    rw [if_neg]
    intro hE
    have : j.1 = v := by
      simp only [voxelJobs, List.mem_cons, List.not_mem_nil, or_false] at hj
      rcases hj with rfl | rfl | rfl | rfl | rfl | rfl <;> rfl
    rw [Exposed, this] at hE
    exact hs hE.1

def scanRow (c : I3) (z y n : Nat) : List I3 := (List.range n).map fun x : Nat => (⟨c.x + x, c.y + y, c.z + z⟩ : I3)
def scanSlab (k : Nat) (c : I3) (z n : Nat) : List I3 := (List.range n).flatMap fun y => scanRow c z y k
def scan (k : Nat) (c : I3) (n : Nat) : List I3 := (List.range n).flatMap fun z => scanSlab k c z k

theorem scanRow_succ (c : I3) (z y n : Nat) : scanRow c z y (n + 1) = scanRow c z y n ++ [⟨c.x + n, c.y + y, c.z + z⟩] := by
  simp [scanRow, List.range_succ]
theorem scanSlab_succ (k : Nat) (c : I3) (z n : Nat) : scanSlab k c z (n + 1) = scanSlab k c z n ++ scanRow c z n k := by
  simp [scanSlab, List.range_succ]
theorem scan_succ (k : Nat) (c : I3) (n : Nat) : scan k c (n + 1) = scan k c n ++ scanSlab k c n k := by
  simp [scan, List.range_succ]

theorem mem_scan {k : Nat} {c v : I3} : v ∈ scan k c k ↔ InChunk k c v := by
  simp only [scan, scanSlab, scanRow, List.mem_flatMap, List.mem_range, List.mem_map]
  constructor
  · rintro ⟨z, hz, y, hy, x, hx, rfl⟩
    unfold InChunk; simp only; omega
  · rintro ⟨⟨h1, h2⟩, ⟨h3, h4⟩, ⟨h5, h6⟩⟩
    refine ⟨(v.z - c.z).toNat, by omega, (v.y - c.y).toNat, by omega, (v.x - c.x).toNat, by omega, ?_⟩
    ext <;> simp only <;> omega

theorem scan_nodup (k : Nat) (c : I3) : (scan k c k).Nodup := by
  unfold scan
  rw [List.nodup_flatMap]
  refine ⟨fun z _ => ?_, List.Pairwise.imp_of_mem ?_ (List.nodup_range (n := k))⟩
  · unfold scanSlab
    rw [List.nodup_flatMap]
    refine ⟨fun y _ => ?_, List.Pairwise.imp_of_mem ?_ (List.nodup_range (n := k))⟩
    · unfold scanRow
      refine List.Nodup.map ?_ List.nodup_range
      intro x x' h
      simp only [I3.mk.injEq] at h
      omega
    · intro y y' _ _ hne
      simp only [Function.onFun, List.disjoint_left, scanRow, List.mem_map]
      rintro v ⟨x, _, rfl⟩ ⟨x', _, h⟩
      simp only [I3.mk.injEq] at h
      omega
  · intro z z' _ _ hne
    simp only [Function.onFun, List.disjoint_left, scanSlab, scanRow, List.mem_map, List.mem_flatMap]
    rintro v ⟨y, _, x, _, rfl⟩ ⟨y', _, x', _, h⟩
    simp only [I3.mk.injEq] at h
    omega

theorem brow_spec (b : Build) {y z : Nat} (hy : y < b.size) (hz : z < b.size) {l : List I3} {s : BLoop}
    (h : BAt b (b.size + 2) l 1 (y + 1) (z + 1) s) :
    ∃ s', (forN (voxelBody b (density b (b.size + 2) (-1)) (b.size + 2) z y) b.size s).map (fun s => (s.1, s.2 + 1 * 2)) = some s' ∧
      BAt b (b.size + 2) (l ++ scanRow b.pos z y b.size) 1 (y + 2) (z + 1) s' := by
  obtain ⟨s', e, hp⟩ := forN_inv (fun x s => BAt b (b.size + 2) (l ++ scanRow b.pos z y x) (x + 1) (y + 1) (z + 1) s)
    (voxelBody b (density b (b.size + 2) (-1)) (b.size + 2) z y) b.size s (by simpa [scanRow] using h)
    (fun x hx s hs => by
      obtain ⟨s', e, h'⟩ := voxel_step b hx hy hz hs
      exact ⟨s', e, by rw [scanRow_succ, ← List.append_assoc]; exact h'⟩)
  refine ⟨(s'.1, s'.2 + 1 * 2), by rw [e]; rfl, hp.1, hp.2.1, ?_⟩
  have := hp.2.2
  simp only [this]; unfold idx; push_cast; ring

theorem bslab_spec (b : Build) {z : Nat} (hz : z < b.size) {l : List I3} {s : BLoop} (h : BAt b (b.size + 2) l 1 1 (z + 1) s) :
    ∃ s', (forN (fun y s => (forN (voxelBody b (density b (b.size + 2) (-1)) (b.size + 2) z y) b.size s).map
        (fun s => (s.1, s.2 + 1 * 2))) b.size s).map (fun s => (s.1, s.2 + ((b.size + 2 : Nat) : ℤ) * 2)) = some s' ∧
      BAt b (b.size + 2) (l ++ scanSlab b.size b.pos z b.size) 1 1 (z + 2) s' := by
  obtain ⟨s', e, hp⟩ := forN_inv (fun y s => BAt b (b.size + 2) (l ++ scanSlab b.size b.pos z y) 1 (y + 1) (z + 1) s)
    (fun y s => (forN (voxelBody b (density b (b.size + 2) (-1)) (b.size + 2) z y) b.size s).map
        (fun s => (s.1, s.2 + 1 * 2))) b.size s (by simpa [scanSlab] using h)
    (fun y hy s hs => by
      obtain ⟨s', e, h'⟩ := brow_spec b hy hz hs
      exact ⟨s', e, by rw [scanSlab_succ, ← List.append_assoc]; exact h'⟩)
  refine ⟨(s'.1, s'.2 + ((b.size + 2 : Nat) : ℤ) * 2), by rw [e]; rfl, hp.1, hp.2.1, ?_⟩
  have := hp.2.2
  simp only [this]; unfold idx; push_cast; ring

theorem near_read (b : Build) {u : I3} (h : (b.pos.x - 1 ≤ u.x ∧ u.x ≤ b.pos.x + b.size) ∧ (b.pos.y - 1 ≤ u.y ∧ u.y ≤ b.pos.y + b.size) ∧
    (b.pos.z - 1 ≤ u.z ∧ u.z ≤ b.pos.z + b.size)) :
    ∃ i < (b.size + 2) * (b.size + 2) * (b.size + 2), density b (b.size + 2) (-1) i = field b u := by
  obtain ⟨⟨h1, h2⟩, ⟨h3, h4⟩, ⟨h5, h6⟩⟩ := h
  refine ⟨idx (b.size + 2) (u.x - b.pos.x + 1).toNat (u.y - b.pos.y + 1).toNat (u.z - b.pos.z + 1).toNat, idx_lt (by omega) (by omega) (by omega), ?_⟩
  rw [density_eq, latt_idx b (-1) (by omega) (by omega)]
  congr 1
  ext <;> simp only <;> omega

theorem mem_voxelJobs {v : I3} {j : VFace} : j ∈ voxelJobs v ↔ j.1 = v := by
  obtain ⟨u, a, s⟩ := j
  simp only [voxelJobs, List.mem_cons, List.not_mem_nil, or_false, Prod.mk.injEq]
  cases a <;> cases s <;> simp

theorem buildBloxel_spec (b : Build) : ∃ m, buildBloxel b = some m ∧ WellFormed m ∧
    Asm (FaceAt (field b) b.iso) ((scan b.size b.pos b.size).flatMap voxelJobs) (litCorners m) := by
  unfold buildBloxel
  simp only
  by_cases hall : (∀ i < (b.size + 2) * (b.size + 2) * (b.size + 2), density b (b.size + 2) (-1) i > b.iso) ∨
      (∀ i < (b.size + 2) * (b.size + 2) * (b.size + 2), density b (b.size + 2) (-1) i < b.iso)
  · rw [if_pos hall]
    refine ⟨_, rfl, ⟨by simp, by simp⟩, ?_⟩
    have := asm_empty (Q := FaceAt (field b) b.iso) ((scan b.size b.pos b.size).flatMap voxelJobs) ?_ Asm.nil
    · simpa [litCorners] using this
    · intro j hj
      obtain ⟨v, hv, hj⟩ := List.mem_flatMap.mp hj
      rw [mem_voxelJobs] at hj
      obtain ⟨u, a, s⟩ := j
      simp only at hj
      subst hj
      obtain ⟨⟨h1, h2⟩, ⟨h3, h4⟩, ⟨h5, h6⟩⟩ := mem_scan.mp hv
      unfold FaceAt
      rw [if_neg]
      rintro ⟨he1, he2⟩
      simp only at he1 he2
      rcases hall with h | h
      · obtain ⟨i, hi, ei⟩ := near_read b (u := u) (by omega)
        have := h i hi
        rw [ei] at this
        linarith
      · obtain ⟨i, hi, ei⟩ := near_read b (u := u.side a s) (by cases a <;> cases s <;> (simp only [I3.side]; omega))
        have := h i hi
        rw [ei] at this
        linarith
  · rw [if_neg hall]
    obtain ⟨s', e, hp⟩ := forN_inv (fun z s => BAt b (b.size + 2) (scan b.size b.pos z) 1 1 (z + 1) s)
      (fun z s => (forN (fun y s => (forN (voxelBody b (density b (b.size + 2) (-1)) (b.size + 2) z y) b.size s).map
        (fun s => (s.1, s.2 + 1 * 2))) b.size s).map (fun s => (s.1, s.2 + ((b.size + 2 : Nat) : ℤ) * 2)))
      b.size (([], []), 1 + ((b.size + 2 : Nat) : ℤ) + ((b.size + 2 : Nat) : ℤ) * ((b.size + 2 : Nat) : ℤ))
      (by
        refine ⟨by constructor <;> simp, ?_, ?_⟩
        · simpa [scan, litCorners] using Asm.nil
        · simp only; unfold idx; push_cast; ring)
      (fun z hz s hs => by
        obtain ⟨s', e, h'⟩ := bslab_spec b hz hs
        exact ⟨s', e, by rw [scan_succ]; exact h'⟩)
    rw [e]
    exact ⟨_, rfl, hp.1, hp.2.1⟩

/-! ### The form of a face -/

theorem corner_iff (j : VFace) (P : I3) : IsCorner j P ↔ P = fcorner j 0 ∨ P = fcorner j 1 ∨ P = fcorner j 2 ∨ P = fcorner j 3 := by
  obtain ⟨v, a, s⟩ := j
  obtain ⟨px, py, pz⟩ := P
  cases a <;> cases s <;>
    (simp only [IsCorner, fcorner, I3.plus, List.getD_cons_zero, List.getD_cons_succ, I3.mk.injEq, if_true, Bool.false_eq_true, if_false]; omega)

theorem faceAt_isFace {f : I3 → ℝ} {iso : ℝ} {j : VFace} {T : List (V3 × ℝ)} (hE : Exposed f iso j) (h : FaceAt f iso j T) : IsFace f iso j T := by
  unfold FaceAt at h
  rw [if_pos hE] at h
  obtain ⟨r, hr, rfl⟩ := h
  have hfac : facing j.2.1 (fcorner j 0).toV (fcorner j 3).toV (fcorner j 2).toV = (if j.2.2 then 1 else -1) ∧
      facing j.2.1 (fcorner j 3).toV (fcorner j 0).toV (fcorner j 1).toV = (if j.2.2 then 1 else -1) ∧
      facing j.2.1 (fcorner j 0).toV (fcorner j 1).toV (fcorner j 2).toV = (if j.2.2 then 1 else -1) ∧
      facing j.2.1 (fcorner j 3).toV (fcorner j 2).toV (fcorner j 1).toV = (if j.2.2 then 1 else -1) := by
    obtain ⟨v, a, s⟩ := j
    cases a <;> cases s <;>
      (simp only [facing, fcorner, I3.plus, I3.toV, List.getD_cons_zero, List.getD_cons_succ, if_true, Bool.false_eq_true, if_false]; push_cast
       refine ⟨?_, ?_, ?_, ?_⟩ <;> ring)
  rcases hr with rfl | rfl
  · refine ⟨fcorner j 0, fcorner j 3, fcorner j 2, fcorner j 3, fcorner j 0, fcorner j 1, rfl, ?_, Or.inl ⟨rfl, rfl⟩, hfac.1, hfac.2.1⟩
    intro P
    rw [corner_iff]
    simp only [List.mem_cons, List.not_mem_nil, or_false]
    tauto
  · refine ⟨fcorner j 0, fcorner j 1, fcorner j 2, fcorner j 3, fcorner j 2, fcorner j 1, rfl, ?_, Or.inr ⟨rfl, rfl⟩, hfac.2.2.1, hfac.2.2.2⟩
    intro P
    rw [corner_iff]
    simp only [List.mem_cons, List.not_mem_nil, or_false]
    tauto

open Classical in
theorem asm_faces {f : I3 → ℝ} {iso : ℝ} {l : List VFace} {T : List (V3 × ℝ)} (h : Asm (FaceAt f iso) l T) :
    ∃ fs : List (VFace × List (V3 × ℝ)), T = fs.flatMap Prod.snd ∧ fs.map Prod.fst = l.filter (fun e => Exposed f iso e) ∧
      ∀ F ∈ fs, IsFace f iso F.1 F.2 := by
  induction h with
  | nil => exact ⟨[], rfl, rfl, by simp⟩
  | @snoc l T j T' _ hq ih =>
    obtain ⟨quads, h1, h2, h3⟩ := ih
    by_cases hc : Exposed f iso j
    · refine ⟨quads ++ [(j, T')], by simp [h1], by simp [h2, hc], ?_⟩
      intro Q hQ
      rcases List.mem_append.mp hQ with hQ | hQ
      · exact h3 Q hQ
      · rw [List.mem_singleton] at hQ; rw [hQ]; exact faceAt_isFace hc hq
    · unfold FaceAt at hq
      rw [if_neg hc] at hq
      exact ⟨quads, by simp [h1, hq], by simp [h2, hc], h3⟩

theorem bjobs_nodup (k : Nat) (c : I3) : ((scan k c k).flatMap voxelJobs).Nodup := by
  rw [List.nodup_flatMap]
  refine ⟨fun v _ => by simp [voxelJobs], (scan_nodup k c).imp ?_⟩
  intro v v' hne
  simp only [Function.onFun, List.disjoint_left, mem_voxelJobs]
  intro j h1 h2
  exact hne (h1 ▸ h2)

/-! ### Brightness -/

theorem shade_bounds (f : I3 → ℝ) (iso : ℝ) (j : VFace) (P : I3) (h : f j.1 ≤ iso) : 0.03 ≤ shade f iso j P ∧ shade f iso j P ≤ 1 := by
  have ho : occluders f iso j P ≤ 3 := by
    unfold occluders
    simp only
    split_ifs <;> omega
  have ho' : (occluders f iso j P : ℝ) ≤ 3 := by exact_mod_cast ho
  have ho0 : (0 : ℝ) ≤ occluders f iso j P := Nat.cast_nonneg _
  have hl0 : 0.3 ≤ faceLight f iso j := le_max_left _ _
  have hl1 : faceLight f iso j ≤ 1 := by
    unfold faceLight
    simp only
    refine max_le (by norm_num) ?_
    have hb : (if j.2.2 then 0.7 * lightDir j.2.1 + 0.3 else 1 - 0.7 * lightDir j.2.1 : ℝ) ≤ 1 := by
      obtain ⟨v, a, s⟩ := j
      cases a <;> cases s <;> simp only [lightDir] <;> norm_num
    have hl : (if j.2.2 then 0.7 * lightDir j.2.1 + 0.3 else 1 - 0.7 * lightDir j.2.1 : ℝ) - 4 * (iso - f j.1) ≤ 1 := by linarith
    generalize (if j.2.2 then 0.7 * lightDir j.2.1 + 0.3 else 1 - 0.7 * lightDir j.2.1 : ℝ) - 4 * (iso - f j.1) = t at hl
    rcases le_total 0 t with h0 | h0
    · rw [abs_of_nonneg h0]; nlinarith
    · rw [abs_of_nonpos h0]; nlinarith
  unfold shade
  constructor <;> nlinarith

end FastNoise.Mesh
