import Verif.Levels
import Verif.BloxelProps

/-!
# C69: the "Min Air Y : Max Solid Y" readout of the mesh preview
-/

namespace FastNoise.Mesh

/-- The least real with a property, `none` if there is none. -/
def LeastOf (o : Option ℝ) (P : ℝ → Prop) : Prop := match o with | none => ∀ r, ¬ P r | some m => P m ∧ ∀ r, P r → m ≤ r
/-- The greatest real with a property, `none` if there is none. -/
def GreatestOf (o : Option ℝ) (P : ℝ → Prop) : Prop := match o with | none => ∀ r, ¬ P r | some m => P m ∧ ∀ r, P r → r ≤ m

theorem LeastOf.congr {o : Option ℝ} {P Q : ℝ → Prop} (h : LeastOf o P) (e : ∀ r, P r ↔ Q r) : LeastOf o Q := by
  have : P = Q := funext fun r => propext (e r)
  rw [← this]; exact h
theorem GreatestOf.congr {o : Option ℝ} {P Q : ℝ → Prop} (h : GreatestOf o P) (e : ∀ r, P r ↔ Q r) : GreatestOf o Q := by
  have : P = Q := funext fun r => propext (e r)
  rw [← this]; exact h

theorem LeastOf.add {o : Option ℝ} {P : ℝ → Prop} (h : LeastOf o P) (y : ℝ) : LeastOf (lower o y) (fun r => P r ∨ r = y) := by
  cases o with
  | none => exact ⟨Or.inr rfl, fun r hr => hr.elim (fun hr => absurd hr (h r)) (fun e => e ▸ le_refl _)⟩
  | some m =>
    refine ⟨?_, fun r hr => ?_⟩
    · rcases min_choice m y with e | e
      · exact Or.inl (by simpa [lower, e] using h.1)
      · exact Or.inr e
    · rcases hr with hr | rfl
      · exact (min_le_left _ _).trans (h.2 r hr)
      · exact min_le_right _ _
theorem GreatestOf.add {o : Option ℝ} {P : ℝ → Prop} (h : GreatestOf o P) (y : ℝ) : GreatestOf (raise o y) (fun r => P r ∨ r = y) := by
  cases o with
  | none => exact ⟨Or.inr rfl, fun r hr => hr.elim (fun hr => absurd hr (h r)) (fun e => e ▸ le_refl _)⟩
  | some m =>
    refine ⟨?_, fun r hr => ?_⟩
    · rcases max_choice m y with e | e
      · exact Or.inl (by simpa [raise, e] using h.1)
      · exact Or.inr e
    · rcases hr with hr | rfl
      · exact (h.2 r hr).trans (le_max_left _ _)
      · exact le_max_right _ _

theorem LeastOf.addAll (l : List ℝ) : ∀ {o : Option ℝ} {P : ℝ → Prop}, LeastOf o P → LeastOf (l.foldl lower o) (fun r => P r ∨ r ∈ l) := by
  induction l with
  | nil => intro o P h; exact h.congr (by simp)
  | cons a l ih => intro o P h; exact (ih (h.add a)).congr (by intro r; simp [or_assoc])
theorem GreatestOf.addAll (l : List ℝ) : ∀ {o : Option ℝ} {P : ℝ → Prop}, GreatestOf o P → GreatestOf (l.foldl raise o) (fun r => P r ∨ r ∈ l) := by
  induction l with
  | nil => intro o P h; exact h.congr (by simp)
  | cons a l ih => intro o P h; exact (ih (h.add a)).congr (by intro r; simp [or_assoc])

theorem LeastOf.join {o o' : Option ℝ} {P Q : ℝ → Prop} (h : LeastOf o P) (h' : LeastOf o' Q) :
    LeastOf (match (generalizing := false) o' with | none => o | some y => lower o y) (fun r => P r ∨ Q r) := by
  cases o' with
  | none => exact h.congr fun r => ⟨Or.inl, fun e => e.resolve_right (h' r)⟩
  | some y =>
    have e := h.add y
    simp only
    generalize hl : lower o y = w at e ⊢
    cases w with
    | none => simp [lower] at hl
    | some w =>
      refine ⟨e.1.imp_right fun (k : w = y) => k ▸ h'.1, fun r hr => ?_⟩
      rcases hr with hr | hr
      · exact e.2 r (Or.inl hr)
      · exact (e.2 y (Or.inr rfl)).trans (h'.2 r hr)
theorem GreatestOf.join {o o' : Option ℝ} {P Q : ℝ → Prop} (h : GreatestOf o P) (h' : GreatestOf o' Q) :
    GreatestOf (match (generalizing := false) o' with | none => o | some y => raise o y) (fun r => P r ∨ Q r) := by
  cases o' with
  | none => exact h.congr fun r => ⟨Or.inl, fun e => e.resolve_right (h' r)⟩
  | some y =>
    have e := h.add y
    simp only
    generalize hl : raise o y = w at e ⊢
    cases w with
    | none => simp [raise] at hl
    | some w =>
      refine ⟨e.1.imp_right fun (k : w = y) => k ▸ h'.1, fun r hr => ?_⟩
      rcases hr with hr | hr
      · exact e.2 r (Or.inl hr)
      · exact (h'.2 r hr).trans (e.2 y (Or.inr rfl))

/-! ### Blocks -/

/-- The heights of the air voxels, and of the solid voxels, among some voxels. -/
def AirAt (f : I3 → ℝ) (iso : ℝ) (V : I3 → Prop) (r : ℝ) : Prop := ∃ v, V v ∧ iso < f v ∧ r = v.y
def SolidAt (f : I3 → ℝ) (iso : ℝ) (V : I3 → Prop) (r : ℝ) : Prop := ∃ v, V v ∧ f v ≤ iso ∧ r = v.y

/-- The levels are exact for the voxels `V`. -/
def Exact (f : I3 → ℝ) (iso : ℝ) (V : I3 → Prop) (L : Levels) : Prop := LeastOf L.air (AirAt f iso V) ∧ GreatestOf L.solid (SolidAt f iso V)

theorem Exact.congr {f : I3 → ℝ} {iso : ℝ} {V W : I3 → Prop} {L : Levels} (h : Exact f iso V L) (e : ∀ v, V v ↔ W v) : Exact f iso W L := by
  have : V = W := funext fun r => propext (e r)
  rw [← this]; exact h

def LAt (b : Build) (l : List I3) (x y z : Nat) (s : Levels × ℤ) : Prop :=
  Exact (field b) b.iso (· ∈ l) s.1 ∧ s.2 = (idx (b.size + 2) x y z : Nat)

theorem level_step (b : Build) {x y z : Nat} (hx : x < b.size) (hy : y < b.size) (hz : z < b.size) {l : List I3} {s : Levels × ℤ}
    (h : LAt b l (x + 1) (y + 1) (z + 1) s) :
    ∃ s', levelBody b (density b (b.size + 2) (-1)) (b.size + 2) y s = some s' ∧
      LAt b (l ++ [⟨b.pos.x + x, b.pos.y + y, b.pos.z + z⟩]) (x + 2) (y + 1) (z + 1) s' := by
  obtain ⟨⟨ha, hs⟩, hi⟩ := h
  obtain ⟨v, hv⟩ : ∃ v : I3, v = ⟨b.pos.x + x, b.pos.y + y, b.pos.z + z⟩ := ⟨_, rfl⟩
  have hv' : v = ⟨b.pos.x + (x + 1 : Nat) - 1, b.pos.y + (y + 1 : Nat) - 1, b.pos.z + (z + 1 : Nat) - 1⟩ := by
    rw [hv]; ext <;> simp only <;> push_cast <;> ring
  have rV := at_small b (S := b.size + 2) (x := x + 1) (y := y + 1) (z := z + 1) (by omega) (by omega) (by omega) hv' (w := ⟨0, 0, 0⟩) (by simp [Small])
    (i := (idx (b.size + 2) (x + 1) (y + 1) (z + 1) : ℤ)) (by simp [lin])
  rw [show v.plus ⟨0, 0, 0⟩ = v by simp [I3.plus]] at rV
  rw [← hv]
  have hy' : (y : ℝ) + (b.pos.y : ℝ) = (v.y : ℤ) := by rw [hv]; push_cast; ring
  have hnext : ((idx (b.size + 2) (x + 1) (y + 1) (z + 1) : Nat) : ℤ) + 1 = (idx (b.size + 2) (x + 2) (y + 1) (z + 1) : Nat) := by
    unfold idx; push_cast; ring
  unfold levelBody
  rw [hi, if_pos (by intro i hi; rw [List.mem_singleton] at hi; rw [hi]; exact rV.1), rV.2, hy']
  refine ⟨_, rfl, ?_, hnext⟩
  by_cases hs' : field b v ≤ b.iso
  · simp only [hs', if_true]
    refine ⟨ha.congr fun r => ?_, (hs.add _).congr fun r => ?_⟩
    · constructor
      · rintro ⟨w, hw, h⟩; exact ⟨w, List.mem_append_left _ hw, h⟩
      · rintro ⟨w, hw, h1, h2⟩
        rcases List.mem_append.mp hw with hw | hw
        · exact ⟨w, hw, h1, h2⟩
        · rw [List.mem_singleton] at hw; subst hw; exact absurd hs' (not_le.mpr h1)
    · constructor
      · rintro (⟨w, hw, h⟩ | rfl)
        · exact ⟨w, List.mem_append_left _ hw, h⟩
        · exact ⟨v, by simp, hs', rfl⟩
      · rintro ⟨w, hw, h1, h2⟩
        rcases List.mem_append.mp hw with hw | hw
        · exact Or.inl ⟨w, hw, h1, h2⟩
        · rw [List.mem_singleton] at hw; subst hw; exact Or.inr h2
  · simp only [hs', if_false]
    refine ⟨(ha.add _).congr fun r => ?_, hs.congr fun r => ?_⟩
    · constructor
      · rintro (⟨w, hw, h⟩ | rfl)
        · exact ⟨w, List.mem_append_left _ hw, h⟩
        · exact ⟨v, by simp, not_le.mp hs', rfl⟩
      · rintro ⟨w, hw, h1, h2⟩
        rcases List.mem_append.mp hw with hw | hw
        · exact Or.inl ⟨w, hw, h1, h2⟩
        · rw [List.mem_singleton] at hw; subst hw; exact Or.inr h2
    · constructor
      · rintro ⟨w, hw, h⟩; exact ⟨w, List.mem_append_left _ hw, h⟩
      · rintro ⟨w, hw, h1, h2⟩
        rcases List.mem_append.mp hw with hw | hw
        · exact ⟨w, hw, h1, h2⟩
        · rw [List.mem_singleton] at hw; subst hw; exact absurd h1 hs'

theorem bloxelLevels_exact (b : Build) (hsize : 0 < b.size) : ∃ L, bloxelLevels b = some L ∧ Exact (field b) b.iso (InChunk b.size b.pos) L := by
  unfold bloxelLevels
  simp only
  have hread : ∀ v, InChunk b.size b.pos v → ∃ i < (b.size + 2) * (b.size + 2) * (b.size + 2), density b (b.size + 2) (-1) i = field b v := by
    intro v hv
    obtain ⟨⟨h1, h2⟩, ⟨h3, h4⟩, ⟨h5, h6⟩⟩ := hv
    exact near_read b (by omega)
  split
  · rename_i hall
    have air : ∀ v, InChunk b.size b.pos v → b.iso < field b v := by
      intro v hv; obtain ⟨i, hi, e⟩ := hread v hv; rw [← e]; exact hall i hi
    refine ⟨_, rfl, ⟨⟨b.pos, by simp [InChunk]; omega, air _ (by simp [InChunk]; omega), rfl⟩, ?_⟩, ?_⟩
    · rintro r ⟨v, hv, _, rfl⟩; exact_mod_cast hv.2.1.1
    · rintro r ⟨v, hv, h, _⟩; exact absurd h (not_le.mpr (air v hv))
  split
  · rename_i hall
    have sol : ∀ v, InChunk b.size b.pos v → field b v < b.iso := by
      intro v hv; obtain ⟨i, hi, e⟩ := hread v hv; rw [← e]; exact hall i hi
    have hin : InChunk b.size b.pos ⟨b.pos.x, b.pos.y - 1 + b.size, b.pos.z⟩ := by simp [InChunk]; omega
    refine ⟨_, rfl, ?_, ⟨⟨_, hin, (sol _ hin).le, by push_cast; rfl⟩, ?_⟩⟩
    · rintro r ⟨v, hv, h, _⟩; exact absurd (sol v hv) (not_lt.mpr h.le)
    · rintro r ⟨v, hv, _, rfl⟩
      have : v.y ≤ b.pos.y - 1 + b.size := by have := hv.2.1.2; omega
      exact_mod_cast this
  · obtain ⟨s', e, hp⟩ := forN_inv (fun z s => LAt b (scan b.size b.pos z) 1 1 (z + 1) s)
      (fun _ s => (forN (fun y s => (forN (fun _ => levelBody b (density b (b.size + 2) (-1)) (b.size + 2) y) b.size s).map
        (fun s => (s.1, s.2 + 1 * 2))) b.size s).map (fun s => (s.1, s.2 + ((b.size + 2 : Nat) : ℤ) * 2)))
      b.size (⟨none, none⟩, 1 + ((b.size + 2 : Nat) : ℤ) + ((b.size + 2 : Nat) : ℤ) * ((b.size + 2 : Nat) : ℤ))
      (by
        refine ⟨⟨?_, ?_⟩, ?_⟩
        · rintro r ⟨v, hv, _⟩; simp [scan] at hv
        · rintro r ⟨v, hv, _⟩; simp [scan] at hv
        · simp only; unfold idx; push_cast; ring)
      (fun z hz s hs => by
        obtain ⟨s', e, hp⟩ := forN_inv (fun y s => LAt b (scan b.size b.pos z ++ scanSlab b.size b.pos z y) 1 (y + 1) (z + 1) s)
          (fun y s => (forN (fun _ => levelBody b (density b (b.size + 2) (-1)) (b.size + 2) y) b.size s).map
            (fun s => (s.1, s.2 + 1 * 2))) b.size s (by simpa [scanSlab] using hs)
          (fun y hy s hs => by
            obtain ⟨s', e, hp⟩ := forN_inv (fun x s => LAt b (scan b.size b.pos z ++ scanSlab b.size b.pos z y ++ scanRow b.pos z y x) (x + 1) (y + 1) (z + 1) s)
              (fun _ => levelBody b (density b (b.size + 2) (-1)) (b.size + 2) y) b.size s (by simpa [scanRow] using hs)
              (fun x hx s hs => by
                obtain ⟨s', e, h'⟩ := level_step b hx hy hz hs
                exact ⟨s', e, by rw [scanRow_succ, ← List.append_assoc]; exact h'⟩)
            refine ⟨(s'.1, s'.2 + 1 * 2), by rw [e]; rfl, ?_, ?_⟩
            · rw [scanSlab_succ, ← List.append_assoc]; exact hp.1
            · have := hp.2
              simp only [this]; unfold idx; push_cast; ring)
        refine ⟨(s'.1, s'.2 + ((b.size + 2 : Nat) : ℤ) * 2), by rw [e]; rfl, ?_, ?_⟩
        · rw [scan_succ]; exact hp.1
        · have := hp.2
          simp only [this]; unfold idx; push_cast; ring)
    rw [e]
    exact ⟨_, rfl, hp.1.congr fun v => mem_scan⟩

theorem readout_snoc (levels : Build → Option Levels) (b : Build) (cs : List I3) (c : I3) :
    readout levels b (cs ++ [c]) = (readout levels b cs).bind fun a => (levels { b with pos := c }).map (joinLevels a) := by
  unfold readout; rw [List.foldl_append]; rfl

/-- **C69.** Block meshes: after any sequence of chunks has arrived, "Min Air Y" is the height of the lowest air voxel of all these chunks and "Max Solid Y" the
height of their highest solid voxel; they stay infinite as long as there is no such voxel. -/
theorem C69_blocks (b : Build) (hsize : 0 < b.size) (chunks : List I3) : ∃ L, readout bloxelLevels b chunks = some L ∧
    LeastOf L.air (fun r => ∃ v : I3, (∃ c ∈ chunks, InChunk b.size c v) ∧ b.iso < field b v ∧ r = v.y) ∧
    GreatestOf L.solid (fun r => ∃ v : I3, (∃ c ∈ chunks, InChunk b.size c v) ∧ field b v ≤ b.iso ∧ r = v.y) := by
  induction chunks using List.reverseRecOn with
  | nil => exact ⟨⟨none, none⟩, rfl, by simp [LeastOf], by simp [GreatestOf]⟩
  | append_singleton cs c ih =>
    obtain ⟨L, e, h1, h2⟩ := ih
    obtain ⟨L', e', h3, h4⟩ := bloxelLevels_exact { b with pos := c } hsize
    refine ⟨joinLevels L L', by rw [readout_snoc, e, Option.bind_some, e']; rfl, ?_, ?_⟩
    · refine (h1.join h3).congr fun r => ?_
      constructor
      · rintro (⟨v, ⟨c', hc', hi⟩, h⟩ | ⟨v, hi, h⟩)
        · exact ⟨v, ⟨c', by simp [hc'], hi⟩, h⟩
        · exact ⟨v, ⟨c, by simp, hi⟩, h⟩
      · rintro ⟨v, ⟨c', hc', hi⟩, h⟩
        rcases List.mem_append.mp hc' with hc' | hc'
        · exact Or.inl ⟨v, ⟨c', hc', hi⟩, h⟩
        · rw [List.mem_singleton] at hc'; subst hc'; exact Or.inr ⟨v, hi, h⟩
    · refine (h2.join h4).congr fun r => ?_
      constructor
      · rintro (⟨v, ⟨c', hc', hi⟩, h⟩ | ⟨v, hi, h⟩)
        · exact ⟨v, ⟨c', by simp [hc'], hi⟩, h⟩
        · exact ⟨v, ⟨c, by simp, hi⟩, h⟩
      · rintro ⟨v, ⟨c', hc', hi⟩, h⟩
        rcases List.mem_append.mp hc' with hc' | hc'
        · exact Or.inl ⟨v, ⟨c', hc', hi⟩, h⟩
        · rw [List.mem_singleton] at hc'; subst hc'; exact Or.inr ⟨v, hi, h⟩

/-- A ground that fills everything up to the height 5.3, in chunks of the size of the program. -/
noncomputable def ground : Build := ⟨128, ⟨0, 0, 0⟩, 5.3, fun _ y _ => y, false⟩

theorem ground_field (v : I3) : field ground v = v.y := rfl
theorem ground_iso : ground.iso = 5.3 := rfl

/-- Non-vacuity of `C69_blocks`: the ground, in the chunk at the origin and the one above it, reads 6 : 5. -/
example : ∃ L, readout bloxelLevels ground [⟨0, 0, 0⟩, ⟨0, 128, 0⟩] = some L ∧ L.air = some 6 ∧ L.solid = some 5 := by
  obtain ⟨⟨air, solid⟩, e, h1, h2⟩ := C69_blocks ground (by norm_num [ground]) [⟨0, 0, 0⟩, ⟨0, 128, 0⟩]
  refine ⟨_, e, ?_, ?_⟩
  · cases air with
    | none =>
      exact absurd ⟨⟨0, 6, 0⟩, ⟨⟨0, 0, 0⟩, by simp, by norm_num [InChunk, ground]⟩, by rw [ground_field, ground_iso]; norm_num, rfl⟩ (h1 6)
    | some m =>
      obtain ⟨⟨v, _, hv, rfl⟩, hle⟩ := h1
      have := hle 6 ⟨⟨0, 6, 0⟩, ⟨⟨0, 0, 0⟩, by simp, by norm_num [InChunk, ground]⟩, by rw [ground_field, ground_iso]; norm_num, by norm_num⟩
      rw [ground_field] at hv
      have h5 : (5 : ℝ) < v.y := lt_trans (by norm_num [ground]) hv
      have h6 : (6 : ℤ) ≤ v.y := by have : (5 : ℤ) < v.y := by exact_mod_cast h5
                                    omega
      have h6' : (6 : ℝ) ≤ v.y := by exact_mod_cast h6
      simp only [Option.some.injEq]; linarith
  · cases solid with
    | none =>
      exact absurd ⟨⟨0, 5, 0⟩, ⟨⟨0, 0, 0⟩, by simp, by norm_num [InChunk, ground]⟩, by rw [ground_field, ground_iso]; norm_num, rfl⟩ (h2 5)
    | some m =>
      obtain ⟨⟨v, _, hv, rfl⟩, hle⟩ := h2
      have := hle 5 ⟨⟨0, 5, 0⟩, ⟨⟨0, 0, 0⟩, by simp, by norm_num [InChunk, ground]⟩, by rw [ground_field, ground_iso]; norm_num, by norm_num⟩
      rw [ground_field] at hv
      have h5 : (v.y : ℝ) < 6 := lt_of_le_of_lt hv (by norm_num [ground])
      have h6 : v.y ≤ (5 : ℤ) := by have : v.y < (6 : ℤ) := by exact_mod_cast h5
                                    omega
      have h6' : (v.y : ℝ) ≤ 5 := by exact_mod_cast h6
      simp only [Option.some.injEq]; linarith

/-! ### Smooth meshes -/

/-- A solid lattice point with air directly above it. -/
def Floor (f : I3 → ℝ) (iso : ℝ) (v : I3) : Prop := f v ≤ iso ∧ iso < f (v.next .y)
/-- An air lattice point with solid directly above it. -/
def Ceiling (f : I3 → ℝ) (iso : ℝ) (v : I3) : Prop := iso < f v ∧ f (v.next .y) ≤ iso

/-- The heights of the vertices around the vertical lattice edges with a property. -/
def VertexAt (f : I3 → ℝ) (iso : ℝ) (V : I3 → Prop) (E : I3 → Prop) (r : ℝ) : Prop := ∃ v, V v ∧ E v ∧ ∃ i < 4, r = (qpos f iso v .y i).y

def SAt (b : Build) (l : List I3) (s : Levels) : Prop :=
  LeastOf s.air (VertexAt (field b) b.iso (· ∈ l) (Ceiling (field b) b.iso)) ∧ GreatestOf s.solid (VertexAt (field b) b.iso (· ∈ l) (Floor (field b) b.iso))

theorem quadOf_mem (q : Nat → V3) {f r : Nat} (hf : f = 0 ∨ f = 2) (hr : r = 0 ∨ r = 2) (y : ℝ) : y ∈ (quadOf q f r).map V3.y ↔ ∃ i < 4, y = (q i).y := by
  constructor
  · intro h
    obtain ⟨p, hp, rfl⟩ := List.mem_map.mp h
    rcases hf with rfl | rfl <;> rcases hr with rfl | rfl <;>
      simp only [quadOf, List.mem_cons, List.not_mem_nil, or_false] at hp <;> rcases hp with rfl | rfl | rfl | rfl | rfl | rfl <;>
      exact ⟨_, by norm_num, rfl⟩
  · rintro ⟨i, hi, rfl⟩
    have : i = 0 ∨ i = 1 ∨ i = 2 ∨ i = 3 := by omega
    rcases hf with rfl | rfl <;> rcases hr with rfl | rfl <;> rcases this with rfl | rfl | rfl | rfl <;> simp [quadOf]

theorem vertexAt_snoc {f : I3 → ℝ} {iso : ℝ} {l : List I3} {E : I3 → Prop} (v : I3) (r : ℝ) :
    VertexAt f iso (· ∈ l ++ [v]) E r ↔ VertexAt f iso (· ∈ l) E r ∨ (E v ∧ ∃ i < 4, r = (qpos f iso v .y i).y) := by
  constructor
  · rintro ⟨w, hw, hE, h⟩
    rcases List.mem_append.mp hw with hw | hw
    · exact Or.inl ⟨w, hw, hE, h⟩
    · rw [List.mem_singleton] at hw; subst hw; exact Or.inr ⟨hE, h⟩
  · rintro (⟨w, hw, h⟩ | ⟨hE, h⟩)
    · exact ⟨w, List.mem_append_left _ hw, h⟩
    · exact ⟨v, by simp, hE, h⟩

open Classical in
theorem slevel_step (b : Build) {x y z : Nat} (hx : x < b.size) (hy : y < b.size) (hz : z < b.size) {lj : List (I3 × Axis)} {l : List I3} {s : Loop × Levels}
    (h : At b (b.size + 4) lj (x + 2) (y + 2) (z + 2) s.1) (hl : SAt b l s.2) :
    ∃ s', cellLevels b (density b (b.size + 4) (-2)) (b.size + 4) z y x s = some s' ∧
      At b (b.size + 4) (lj ++ jobCell b.pos z y x) (x + 3) (y + 2) (z + 2) s'.1 ∧ SAt b (l ++ [⟨b.pos.x + x, b.pos.y + y, b.pos.z + z⟩]) s'.2 := by
  obtain ⟨hg, ha, hi⟩ := h
  obtain ⟨v, hv⟩ : ∃ v : I3, v = ⟨b.pos.x + x, b.pos.y + y, b.pos.z + z⟩ := ⟨_, rfl⟩
  have hv' : v = ⟨b.pos.x + (x + 2 : Nat) - 2, b.pos.y + (y + 2 : Nat) - 2, b.pos.z + (z + 2 : Nat) - 2⟩ := by
    rw [hv]; ext <;> simp only <;> push_cast <;> ring
  have hoff : (⟨((b.pos.x + x : ℤ) : ℝ), ((b.pos.y + y : ℤ) : ℝ), ((b.pos.z + z : ℤ) : ℝ)⟩ : V3) = v.toV := by rw [hv]; rfl
  obtain ⟨s1, e1, g1, T1, c1, q1⟩ := addQuad_spec b (S := b.size + 4) (by omega) (by omega) (by omega) (by omega) (by omega) (by omega) hv' .x hg
  obtain ⟨s2, e2, g2, T2, c2, q2⟩ := addQuad_spec b (S := b.size + 4) (by omega) (by omega) (by omega) (by omega) (by omega) (by omega) hv' .y g1
  obtain ⟨s3, e3, g3, T3, c3, q3⟩ := addQuad_spec b (S := b.size + 4) (by omega) (by omega) (by omega) (by omega) (by omega) (by omega) hv' .z g2
  have hd : density b (b.size + 4) (-2) (idx (b.size + 4) (x + 2) (y + 2) (z + 2)) = field b v := by
    rw [density_eq, latt_idx b (-2) (by omega) (by omega), hv']; rfl
  have hn : newHeights s1 s2 = T2.map V3.y := by unfold newHeights; rw [c2, List.drop_left]
  have hmem : ∀ r, r ∈ T2.map V3.y ↔ Crosses (field b) b.iso v .y ∧ ∃ i < 4, r = (qpos (field b) b.iso v .y i).y := by
    intro r
    unfold QuadAt at q2
    by_cases hc : Crosses (field b) b.iso v .y
    · rw [if_pos hc] at q2
      obtain ⟨k, hk, rfl⟩ := q2
      rw [quadOf_mem _ (by split <;> simp) hk]
      simp [hc]
    · rw [if_neg hc] at q2; simp [q2, hc]
  refine ⟨((s3, s.1.2 + 1), if field b v ≤ b.iso then { s.2 with solid := (T2.map V3.y).foldl raise s.2.solid }
    else { s.2 with air := (T2.map V3.y).foldl lower s.2.air }), ?_, ⟨g3, ?_, ?_⟩, ?_⟩
  · unfold cellLevels
    rw [hoff]; simp only; rw [hi, e1]; simp only [Option.bind_some]
    rw [e2]; simp only [Option.bind_some]
    rw [e3]; simp only [Option.map_some, hn, hd]
  · have := ((ha.snoc q1).snoc q2).snoc q3
    simp only [c3, c2, c1, jobCell, ← hv]
    simpa using this
  · simp only [hi]; unfold idx; ring
  · rw [← hv]
    obtain ⟨h1, h2⟩ := hl
    by_cases hs : field b v ≤ b.iso
    · simp only [hs, if_true]
      refine ⟨h1.congr fun r => ?_, (h2.addAll _).congr fun r => ?_⟩
      · rw [vertexAt_snoc]
        exact ⟨Or.inl, fun e => e.resolve_right fun k => absurd hs (not_le.mpr k.1.1)⟩
      · rw [vertexAt_snoc, hmem]
        have : Crosses (field b) b.iso v .y ↔ Floor (field b) b.iso v := by unfold Crosses Floor; simp [hs]
        rw [this]
    · simp only [hs, if_false]
      refine ⟨(h1.addAll _).congr fun r => ?_, h2.congr fun r => ?_⟩
      · rw [vertexAt_snoc, hmem]
        have : Crosses (field b) b.iso v .y ↔ Ceiling (field b) b.iso v := by unfold Crosses Ceiling; simp [hs, not_le.mp hs]
        rw [this]
      · rw [vertexAt_snoc]
        exact ⟨Or.inl, fun e => e.resolve_right fun k => absurd k.1.1 hs⟩

/-- All densities of the chunk, with two more layers around it, are air. -/
def AllAir (b : Build) : Prop := ∀ i < (b.size + 4) * (b.size + 4) * (b.size + 4), density b (b.size + 4) (-2) i > b.iso
def AllSolid (b : Build) : Prop := ∀ i < (b.size + 4) * (b.size + 4) * (b.size + 4), density b (b.size + 4) (-2) i < b.iso

open Classical in
theorem dmcLevels_spec (b : Build) : ∃ L, dmcLevels b = some L ∧
    if AllAir b then L = ⟨some b.pos.y, none⟩ else if AllSolid b then L = ⟨none, some (b.pos.y - 1 + b.size)⟩ else
      LeastOf L.air (VertexAt (field b) b.iso (InChunk b.size b.pos) (Ceiling (field b) b.iso)) ∧
      GreatestOf L.solid (VertexAt (field b) b.iso (InChunk b.size b.pos) (Floor (field b) b.iso)) := by
  classical
  unfold dmcLevels
  simp only
  by_cases hA : AllAir b
  · refine ⟨_, if_pos hA, ?_⟩
    rw [if_pos hA]
  have hA' : ¬ ∀ i < (b.size + 4) * (b.size + 4) * (b.size + 4), density b (b.size + 4) (-2) i > b.iso := hA
  rw [if_neg hA']
  by_cases hS : AllSolid b
  · refine ⟨_, if_pos hS, ?_⟩
    rw [if_neg hA, if_pos hS]
  have hS' : ¬ ∀ i < (b.size + 4) * (b.size + 4) * (b.size + 4), density b (b.size + 4) (-2) i < b.iso := hS
  rw [if_neg hS']
  simp only [if_neg hA, if_neg hS]
  obtain ⟨s', e, hp⟩ := forN_inv (fun z s => At b (b.size + 4) (jobs b.size b.pos z) 2 2 (z + 2) s.1 ∧ SAt b (scan b.size b.pos z) s.2)
    (fun z s => (forN (fun y s => (forN (cellLevels b (density b (b.size + 4) (-2)) (b.size + 4) z y) b.size s).map
      (fun s => ((s.1.1, s.1.2 + 1 * (b.size + 4 - b.size)), s.2))) b.size s).map (fun s => ((s.1.1, s.1.2 + (b.size + 4) * (b.size + 4 - b.size)), s.2)))
    b.size (((⟨[], []⟩, []), (1 + (b.size + 4) + (b.size + 4) * (b.size + 4)) * 2), ⟨none, none⟩)
    (by
      refine ⟨⟨⟨⟨fun key i h => by simp at h, fun e he => by simp at he⟩, by constructor <;> simp⟩, ?_, ?_⟩, ?_, ?_⟩
      · simpa [jobs, cornersOf] using Assembled.nil
      · simp only; unfold idx; ring
      · rintro r ⟨v, hv, _⟩; simp [scan] at hv
      · rintro r ⟨v, hv, _⟩; simp [scan] at hv)
    (fun z hz s hs => by
      obtain ⟨s', e, hp⟩ := forN_inv (fun y s => At b (b.size + 4) (jobs b.size b.pos z ++ jobSlab b.size b.pos z y) 2 (y + 2) (z + 2) s.1 ∧
          SAt b (scan b.size b.pos z ++ scanSlab b.size b.pos z y) s.2)
        (fun y s => (forN (cellLevels b (density b (b.size + 4) (-2)) (b.size + 4) z y) b.size s).map
          (fun s => ((s.1.1, s.1.2 + 1 * (b.size + 4 - b.size)), s.2))) b.size s (by simpa [jobSlab, scanSlab] using hs)
        (fun y hy s hs => by
          obtain ⟨s', e, hp⟩ := forN_inv (fun x s => At b (b.size + 4) (jobs b.size b.pos z ++ jobSlab b.size b.pos z y ++ jobRow b.pos z y x) (x + 2) (y + 2) (z + 2) s.1 ∧
              SAt b (scan b.size b.pos z ++ scanSlab b.size b.pos z y ++ scanRow b.pos z y x) s.2)
            (cellLevels b (density b (b.size + 4) (-2)) (b.size + 4) z y) b.size s (by simpa [jobRow, scanRow] using hs)
            (fun x hx s hs => by
              obtain ⟨s', e, h', h''⟩ := slevel_step b hx hy hz hs.1 hs.2
              refine ⟨s', e, ?_, ?_⟩
              · rw [jobRow_succ, ← List.append_assoc]; exact h'
              · rw [scanRow_succ, ← List.append_assoc]; exact h'')
          refine ⟨((s'.1.1, s'.1.2 + 1 * (b.size + 4 - b.size)), s'.2), by rw [e]; rfl, ⟨hp.1.1, ?_, ?_⟩, ?_⟩
          · rw [jobSlab_succ, ← List.append_assoc]; exact hp.1.2.1
          · have := hp.1.2.2
            simp only [this, show b.size + 4 - b.size = 4 by omega]; unfold idx; ring
          · rw [scanSlab_succ, ← List.append_assoc]; exact hp.2)
      refine ⟨((s'.1.1, s'.1.2 + (b.size + 4) * (b.size + 4 - b.size)), s'.2), by rw [e]; rfl, ⟨hp.1.1, ?_, ?_⟩, ?_⟩
      · rw [jobs_succ]; exact hp.1.2.1
      · have := hp.1.2.2
        simp only [this, show b.size + 4 - b.size = 4 by omega]; unfold idx; ring
      · rw [scan_succ]; exact hp.2)
  refine ⟨s'.2, by rw [e]; rfl, ?_⟩
  have hV : (fun v => v ∈ scan b.size b.pos b.size) = InChunk b.size b.pos := funext fun v => propext mem_scan
  have := hp.2
  unfold SAt at this
  rw [hV] at this
  exact this

theorem vertex_between (f : I3 → ℝ) (iso : ℝ) (v : I3) (i : Nat) : (v.y : ℝ) ≤ (qpos f iso v .y i).y ∧ (qpos f iso v .y i).y ≤ v.y + 1 := by
  have h := qpos_cell f iso v .y i
  simp only at h
  have e : ((around .y).getD i (0, ⟨0, 0, 0⟩)).2.y = 0 := by rcases i with _ | _ | _ | _ | i <;> simp [around]
  obtain ⟨_, ⟨h1, h2⟩, _⟩ := h
  rw [e] at h1 h2
  simpa using And.intro h1 h2

open Classical in
/-- **C69.** Smooth meshes: what one chunk contributes to the readout.  A chunk that is air (solid) together with two layers around it contributes its lowest
(highest) lattice height.  Any other chunk contributes to "Max Solid Y" a height within one unit above its highest solid lattice point *that has air directly above
it*, and to "Min Air Y" one within a unit above its lowest air lattice point *that has solid directly above it*; nothing where there is no such point.  The full
claim, as in `C69_blocks`, is false: `C69_smooth_misses_air`. -/
theorem C69_smooth_partial (b : Build) : ∃ L, dmcLevels b = some L ∧
    if AllAir b then L = ⟨some b.pos.y, none⟩ else if AllSolid b then L = ⟨none, some (b.pos.y - 1 + b.size)⟩ else
      (match L.solid with
        | none => ∀ v, InChunk b.size b.pos v → ¬ Floor (field b) b.iso v
        | some r => (∃ v, InChunk b.size b.pos v ∧ Floor (field b) b.iso v ∧ v.y ≤ r ∧ r ≤ v.y + 1) ∧
            ∀ v, InChunk b.size b.pos v → Floor (field b) b.iso v → v.y ≤ r) ∧
      (match L.air with
        | none => ∀ v, InChunk b.size b.pos v → ¬ Ceiling (field b) b.iso v
        | some r => (∃ v, InChunk b.size b.pos v ∧ Ceiling (field b) b.iso v ∧ v.y ≤ r ∧ r ≤ v.y + 1) ∧
            ∀ v, InChunk b.size b.pos v → Ceiling (field b) b.iso v → r ≤ v.y + 1) := by
  classical
  obtain ⟨L, e, h⟩ := dmcLevels_spec b
  refine ⟨L, e, ?_⟩
  by_cases hA : AllAir b
  · rw [if_pos hA] at h ⊢; exact h
  by_cases hS : AllSolid b
  · rw [if_neg hA, if_pos hS] at h ⊢; exact h
  rw [if_neg hA, if_neg hS] at h ⊢
  obtain ⟨air, solid⟩ := L
  obtain ⟨h1, h2⟩ := h
  constructor
  · cases solid with
    | none => intro v hv hF; exact h2 _ ⟨v, hv, hF, 0, by norm_num, rfl⟩
    | some r =>
      obtain ⟨⟨v, hv, hF, i, _, rfl⟩, hle⟩ := h2
      refine ⟨⟨v, hv, hF, vertex_between _ _ v i⟩, fun w hw hG => ?_⟩
      exact (vertex_between (field b) b.iso w 0).1.trans (hle _ ⟨w, hw, hG, 0, by norm_num, rfl⟩)
  · cases air with
    | none => intro v hv hF; exact h1 _ ⟨v, hv, hF, 0, by norm_num, rfl⟩
    | some r =>
      obtain ⟨⟨v, hv, hF, i, _, rfl⟩, hle⟩ := h1
      refine ⟨⟨v, hv, hF, vertex_between _ _ v i⟩, fun w hw hG => ?_⟩
      exact (hle _ ⟨w, hw, hG, 0, by norm_num, rfl⟩).trans (vertex_between (field b) b.iso w 0).2

theorem ground_mixed : ¬ AllAir ground ∧ ¬ AllSolid ground := by
  have hd : ∀ v : I3, InChunk 128 ⟨0, 0, 0⟩ v → ∃ i < (ground.size + 4) * (ground.size + 4) * (ground.size + 4), density ground (ground.size + 4) (-2) i = field ground v :=
    fun v hv => (next_read ground hv .x).1
  constructor
  · intro h
    obtain ⟨i, hi, e⟩ := hd ⟨0, 0, 0⟩ (by norm_num [InChunk])
    have := h i hi
    rw [e, ground_field] at this
    norm_num [ground] at this
  · intro h
    obtain ⟨i, hi, e⟩ := hd ⟨0, 6, 0⟩ (by norm_num [InChunk])
    have := h i hi
    rw [e, ground_field] at this
    norm_num [ground] at this

/-- **C69**, negation for smooth meshes: on a flat ground at height 5.3 the chunk at the origin and the one above it give the readout "Min Air Y 128", although
the chunk at the origin has air from height 6 on: air above a floor is not counted. -/
theorem C69_smooth_misses_air : ∃ L, readout dmcLevels ground [⟨0, 0, 0⟩, ⟨0, 128, 0⟩] = some L ∧ L.air = some 128 ∧
    InChunk ground.size ⟨0, 0, 0⟩ ⟨0, 6, 0⟩ ∧ ground.iso < field ground ⟨0, 6, 0⟩ := by
  classical
  obtain ⟨L1, e1, h1⟩ := C69_smooth_partial ground
  rw [if_neg ground_mixed.1, if_neg ground_mixed.2] at h1
  have a1 : L1.air = none := by
    have h := h1.2
    cases hL : L1.air with
    | none => rfl
    | some r =>
      rw [hL] at h
      obtain ⟨⟨v, _, ⟨c1, c2⟩, _⟩, _⟩ := h
      rw [ground_field] at c1 c2
      simp only [I3.next] at c2
      push_cast at c2
      linarith
  obtain ⟨L2, e2, h2⟩ := C69_smooth_partial { ground with pos := ⟨0, 128, 0⟩ }
  have hA : AllAir { ground with pos := ⟨0, 128, 0⟩ } := by
    intro i _
    rw [density_eq]
    simp only [field, latt, ground, Bool.false_eq_true, if_false]
    have h1 : (126 : ℤ) ≤ 128 + ((i / 132 % 132 : Nat) : ℤ) + -2 := by omega
    have h3 : ((126 : ℤ) : ℝ) ≤ ((128 + ((i / 132 % 132 : Nat) : ℤ) + -2 : ℤ) : ℝ) := Int.cast_le.mpr h1
    exact lt_of_lt_of_le (by norm_num) h3
  rw [if_pos hA] at h2
  refine ⟨joinLevels (joinLevels ⟨none, none⟩ L1) L2, ?_, ?_, by norm_num [InChunk, ground], by rw [ground_field, ground_iso]; norm_num⟩
  · have e1' : dmcLevels { ground with pos := ⟨0, 0, 0⟩ } = some L1 := e1
    unfold readout
    simp only [List.foldl_cons, List.foldl_nil, Option.bind_some, e1', e2, Option.map_some]
  · rw [h2]
    simp [joinLevels, a1, lower]

end FastNoise.Mesh
