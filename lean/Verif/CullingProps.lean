import Verif.CullingSpec
import Verif.BloxelProps
import Verif.HeightProps

/-!
# C68: no visible part of the mesh preview is culled

`Draw` skips the chunks whose box does not touch the view frustum.
-/

namespace FastNoise.Mesh

theorem tris_corners : ∀ (l : List V3) {T : V3 × V3 × V3}, T ∈ trianglesOf l → T.1 ∈ l ∧ T.2.1 ∈ l ∧ T.2.2 ∈ l
  | [], T, h => by simp [trianglesOf] at h
  | [_], T, h => by simp [trianglesOf] at h
  | [_, _], T, h => by simp [trianglesOf] at h
  | a :: b :: c :: r, T, h => by
    simp only [trianglesOf, List.mem_cons] at h
    rcases h with rfl | h
    · simp
    · have := tris_corners r h
      simp [this]

theorem tris_append : ∀ (l l' : List V3), 3 ∣ l.length → trianglesOf (l ++ l') = trianglesOf l ++ trianglesOf l'
  | [], l', _ => by simp [trianglesOf]
  | [_], _, h => by simp at h
  | [_, _], _, h => by simp at h
  | a :: b :: c :: r, l', h => by
    have : 3 ∣ r.length := by simp only [List.length_cons] at h; omega
    simp only [List.cons_append, trianglesOf, tris_append r l' this]

/-- The position lies in the box. -/
def InBox (B : Box) (p : V3) : Prop := (B.lo.x ≤ p.x ∧ p.x ≤ B.hi.x) ∧ (B.lo.y ≤ p.y ∧ p.y ≤ B.hi.y) ∧ (B.lo.z ≤ p.z ∧ p.z ≤ B.hi.z)

theorem axis_bound {lo hi p n : ℝ} (h1 : lo ≤ p) (h2 : p ≤ hi) : 2 * (n * p) ≤ (lo + hi) * n + (hi - lo) * |n| := by
  rcases le_total 0 n with h | h
  · rw [abs_of_nonneg h]; nlinarith
  · rw [abs_of_nonpos h]; nlinarith

theorem box_drawn {B : Box} {F : List Plane} {p : V3} (hp : InBox B p) (hF : Inside F p) : rangeFrustum B F := by
  intro P hP h
  have h0 := hF P hP
  have hx := axis_bound (n := P.n.x) hp.1.1 hp.1.2
  have hy := axis_bound (n := P.n.y) hp.2.1.1 hp.2.1.2
  have hz := axis_bound (n := P.n.z) hp.2.2.1 hp.2.2.2
  simp only [dot, v3_add, mk_sub] at h
  linarith

theorem bary_box {B : Box} {T : V3 × V3 × V3} (h1 : InBox B T.1) (h2 : InBox B T.2.1) (h3 : InBox B T.2.2) {s t u : ℝ} (hs : 0 ≤ s) (ht : 0 ≤ t) (hu : 0 ≤ u)
    (h : s + t + u = 1) : InBox B (bary T s t u) := by
  have key : ∀ a b c lo hi : ℝ, lo ≤ a ∧ a ≤ hi → lo ≤ b ∧ b ≤ hi → lo ≤ c ∧ c ≤ hi → lo ≤ s * a + t * b + u * c ∧ s * a + t * b + u * c ≤ hi := by
    intro a b c lo hi ha hb hc
    have e1 : ∀ r, s * r + t * r + u * r = r := fun r => by rw [← add_mul, ← add_mul, h, one_mul]
    have e2 := e1 lo
    have e3 := e1 hi
    constructor
    · nlinarith [mul_nonneg hs (sub_nonneg.mpr ha.1), mul_nonneg ht (sub_nonneg.mpr hb.1), mul_nonneg hu (sub_nonneg.mpr hc.1)]
    · nlinarith [mul_nonneg hs (sub_nonneg.mpr ha.2), mul_nonneg ht (sub_nonneg.mpr hb.2), mul_nonneg hu (sub_nonneg.mpr hc.2)]
  exact ⟨key _ _ _ _ _ h1.1 h2.1 h3.1, key _ _ _ _ _ h1.2.1 h2.2.1 h3.2.1, key _ _ _ _ _ h1.2.2 h2.2.2 h3.2.2⟩

theorem inView_drawn {B : Box} {F : List Plane} {m : List (V3 × ℝ) × List Nat} (hb : ∀ p ∈ cornersOf m, InBox B p) (h : InView F m) : rangeFrustum B F := by
  obtain ⟨T, hT, s, t, u, hs, ht, hu, e, hF⟩ := h
  obtain ⟨h1, h2, h3⟩ := tris_corners _ hT
  exact box_drawn (bary_box (hb _ h1) (hb _ h2) (hb _ h3) hs ht hu e) hF

theorem cornersOf_lit (m : List (V3 × ℝ) × List Nat) : cornersOf m = (litCorners m).map Prod.fst := by
  unfold cornersOf litCorners
  rw [List.map_filterMap]

theorem blocks_box {b : Build} {m : List (V3 × ℝ) × List Nat} (h : buildBloxel b = some m) :
    ∀ p ∈ cornersOf m, (b.pos.x ≤ p.x ∧ p.x ≤ b.pos.x + b.size) ∧ (b.pos.y ≤ p.y ∧ p.y ≤ b.pos.y + b.size) ∧ (b.pos.z ≤ p.z ∧ p.z ≤ b.pos.z + b.size) := by
  obtain ⟨fs, e1, _, e3, e4⟩ := C47_one_face_per_exposed h
  intro p hp
  rw [cornersOf_lit, e1, List.mem_map] at hp
  obtain ⟨e, he, rfl⟩ := hp
  obtain ⟨Q, hQ, he⟩ := List.mem_flatMap.mp he
  obtain ⟨P0, P1, P2, P3, P4, P5, hT, hc, _⟩ := e4 Q hQ
  rw [hT] at he
  obtain ⟨P, hP, rfl⟩ := List.mem_map.mp he
  obtain ⟨c1, c2, c3, _⟩ := (hc P).mpr hP
  obtain ⟨hin, _⟩ := (e3 Q.1).mp (List.mem_map.mpr ⟨Q, hQ, rfl⟩)
  obtain ⟨⟨i1, i2⟩, ⟨i3, i4⟩, ⟨i5, i6⟩⟩ := hin
  have r : ∀ {a c : ℤ} {n : Nat} {q : ℤ}, c ≤ a → a < c + n → (q = a ∨ q = a + 1) → ((c : ℝ) ≤ q ∧ (q : ℝ) ≤ c + n) := by
    intro a c n q h1 h2 h3
    constructor
    · exact_mod_cast (by omega : c ≤ q)
    · exact_mod_cast (by omega : q ≤ c + n)
  exact ⟨r i1 i2 c1, r i3 i4 c2, r i5 i6 c3⟩

theorem smooth_box {b : Build} {m : List (V3 × ℝ) × List Nat} (h : buildDmc b = some m) :
    ∀ p ∈ cornersOf m, (b.pos.x - 1 ≤ p.x ∧ p.x ≤ b.pos.x + b.size) ∧ (b.pos.y - 1 ≤ p.y ∧ p.y ≤ b.pos.y + b.size) ∧
      (b.pos.z - 1 ≤ p.z ∧ p.z ≤ b.pos.z + b.size) := by
  obtain ⟨qs, e1, _, e3, e4⟩ := C46_one_quad_per_crossing h
  intro p hp
  rw [e1] at hp
  obtain ⟨Q, hQ, hp⟩ := List.mem_flatMap.mp hp
  obtain ⟨p0, p1, p2, p3, p4, p5, hT, hc, _⟩ := e4 Q hQ
  obtain ⟨u, hu, hin⟩ := hc p hp
  obtain ⟨⟨⟨i1, i2⟩, ⟨i3, i4⟩, ⟨i5, i6⟩⟩, _⟩ := (e3 Q.1.1 Q.1.2).mp (List.mem_map.mpr ⟨Q, hQ, rfl⟩)
  have r : ∀ {a c u : ℤ} {n : Nat} {q : ℝ} {X : Prop}, c ≤ a → a < c + n → (u = a ∨ u = a - 1 ∧ X) → ((u : ℝ) ≤ q ∧ q ≤ u + 1) →
      ((c : ℝ) - 1 ≤ q ∧ q ≤ c + n) := by
    intro a c u n q X h1 h2 h3 h4
    have h5 : c - 1 ≤ u := by rcases h3 with h | h <;> omega
    have h6 : u + 1 ≤ c + n := by rcases h3 with h | h <;> omega
    have h5' : (c : ℝ) - 1 ≤ u := by exact_mod_cast h5
    have h6' : (u : ℝ) + 1 ≤ c + n := by exact_mod_cast h6
    exact ⟨by linarith [h4.1], by linarith [h4.2]⟩
  exact ⟨r i1 i2 hu.1 hin.1, r i3 i4 hu.2.1 hin.2.1, r i5 i6 hu.2.2 hin.2.2⟩

theorem height_corner {b : HBuild} {m : List (V3 × ℝ) × List Nat} (h : buildHeight b = some m) {p : V3} (hp : p ∈ cornersOf m) :
    ∃ x z : ℤ, (b.posX ≤ x ∧ x ≤ b.posX + b.size) ∧ (b.posZ ≤ z ∧ z ≤ b.posZ + b.size) ∧ p = terrain b x z := by
  obtain ⟨ps, e1, _, e3, e4⟩ := C48_one_patch_per_square h
  rw [cornersOf_lit, e1, List.mem_map] at hp
  obtain ⟨e, he, rfl⟩ := hp
  obtain ⟨Q, hQ, he⟩ := List.mem_flatMap.mp he
  obtain ⟨light, hT, _⟩ := e4 Q hQ
  obtain ⟨⟨i1, i2⟩, ⟨i3, i4⟩⟩ := (e3 Q.1).mp (List.mem_map.mpr ⟨Q, hQ, rfl⟩)
  simp only at i1 i2 i3 i4
  have hx : ∃ x z : ℤ, (x = Q.1.1 ∨ x = Q.1.1 + 1) ∧ (z = Q.1.2 ∨ z = Q.1.2 + 1) ∧ e.1 = terrain b x z := by
    rcases hT with ⟨hT, _⟩ | ⟨hT, _⟩ <;> rw [hT] at he <;>
      simp only [List.map_cons, List.map_nil, List.mem_cons, List.not_mem_nil, or_false] at he <;>
      rcases he with rfl | rfl | rfl | rfl | rfl | rfl <;>
      exact ⟨_, _, by first | exact Or.inl rfl | exact Or.inr rfl, by first | exact Or.inl rfl | exact Or.inr rfl, rfl⟩
  obtain ⟨x, z, hx, hz, e⟩ := hx
  exact ⟨x, z, by omega, by omega, e⟩

theorem height_density {v : View} (hk : v.kind = .heights) {pos : I3} {x z : ℤ} (hx : pos.x ≤ x ∧ x ≤ pos.x + v.size) (hz : pos.z ≤ z ∧ z ≤ pos.z + v.size) :
    v.gen2 x z ∈ densities v pos := by
  unfold densities
  rw [hk]
  refine ⟨hidx (v.size + 1) (x - pos.x).toNat (z - pos.z).toNat, ?_, ?_⟩
  · unfold hidx
    have h1 : (x - pos.x).toNat < v.size + 1 := by omega
    have h2 : (z - pos.z).toNat < v.size + 1 := by omega
    nlinarith
  · rw [hdensity_at _ (by omega)]
    simp only [View.hbuild]
    congr 2 <;> omega

/-- The loaded chunks: each is a mesh of the view, and its densities lie in the accumulated range. -/
theorem shown_inv {v : View} {mm : Option (ℝ × ℝ)} {cs : List Loaded} (h : Shown v mm cs) :
    ∀ c ∈ cs, buildMesh v c.1 = some c.2 ∧ ∃ p, mm = some p ∧ ∀ r ∈ densities v c.1, p.1 ≤ r ∧ r ≤ p.2 := by
  induction h with
  | start => simp
  | @pop mm cs pos m lo hi _ hb hl hg ih =>
    intro c hc
    rcases List.mem_append.mp hc with hc | hc
    · obtain ⟨h1, p, rfl, h2⟩ := ih c hc
      refine ⟨h1, _, rfl, fun r hr => ?_⟩
      exact ⟨(min_le_left _ _).trans (h2 r hr).1, (h2 r hr).2.trans (le_max_left _ _)⟩
    · rw [List.mem_singleton] at hc
      subst hc
      refine ⟨hb, ?_⟩
      cases mm with
      | none => exact ⟨_, rfl, fun r hr => ⟨hl.2 hr, hg.2 hr⟩⟩
      | some q => exact ⟨_, rfl, fun r hr => ⟨(min_le_right _ _).trans (hl.2 hr), (hg.2 hr).trans (le_max_right _ _)⟩⟩
  | keep _ hsub ih => exact fun c hc => ih c (hsub hc)

/-- **C68.** Block meshes: whenever the camera sees a point of a triangle of a loaded chunk, the chunk is drawn. -/
theorem C68_blocks {v : View} (hk : v.kind = .blocks) {mm : Option (ℝ × ℝ)} {cs : List Loaded} (h : Shown v mm cs) {c : Loaded} (hc : c ∈ cs) (F : List Plane)
    (hF : InView F c.2) : Drawn v mm c F := by
  obtain ⟨hb, _⟩ := shown_inv h c hc
  simp only [buildMesh, hk] at hb
  refine inView_drawn (fun p hp => ?_) hF
  obtain ⟨⟨h1, h2⟩, ⟨h3, h4⟩, ⟨h5, h6⟩⟩ := blocks_box hb p hp
  simp only [View.build] at h1 h2 h3 h4 h5 h6
  simp only [chunkBox, hk, InBox]
  refine ⟨⟨h1, ?_⟩, ⟨h3, ?_⟩, ⟨h5, ?_⟩⟩ <;> linarith

/-- **C68.** Height maps with a multiplier that is not negative: whenever the camera sees a point of a triangle of a loaded chunk, the chunk is drawn, whatever
chunks were loaded and unloaded before.  For a negative multiplier this is false: `C68_heights_vanish`. -/
theorem C68_heights_partial {v : View} (hk : v.kind = .heights) (hmult : 0 ≤ v.mult) {mm : Option (ℝ × ℝ)} {cs : List Loaded} (h : Shown v mm cs) {c : Loaded}
    (hc : c ∈ cs) (F : List Plane) (hF : InView F c.2) : Drawn v mm c F := by
  obtain ⟨hb, p, rfl, hp⟩ := shown_inv h c hc
  simp only [buildMesh, hk] at hb
  refine inView_drawn (fun q hq => ?_) hF
  obtain ⟨x, z, hx, hz, rfl⟩ := height_corner hb hq
  simp only [View.hbuild] at hx hz
  obtain ⟨h1, h2⟩ := hp _ (height_density hk hx hz)
  simp only [chunkBox, hk, InBox, terrain, Option.getD_some, View.hbuild]
  have hx1 : (c.1.x : ℝ) ≤ x := by exact_mod_cast hx.1
  have hx2 : (x : ℝ) ≤ c.1.x + v.size := by exact_mod_cast hx.2
  have hz1 : (c.1.z : ℝ) ≤ z := by exact_mod_cast hz.1
  have hz2 : (z : ℝ) ≤ c.1.z + v.size := by exact_mod_cast hz.2
  exact ⟨⟨hx1, by linarith⟩, ⟨mul_le_mul_of_nonneg_right h1 hmult, mul_le_mul_of_nonneg_right h2 hmult⟩, ⟨hz1, by linarith⟩⟩

/-- The box enlarged by one unit towards the lower coordinates: what `Draw` would have to test. -/
def grow (B : Box) : Box := ⟨⟨B.lo.x - 1, B.lo.y - 1, B.lo.z - 1⟩, B.hi⟩

/-- **C68.** Smooth meshes: a chunk that is seen touches the frustum with its box enlarged by one unit towards the lower coordinates; so a chunk is skipped
wrongly only if all that is seen of it is within one unit of its lower faces.  With the box of the code the claim is false: `C68_smooth_vanishes`. -/
theorem C68_smooth_partial {v : View} (hk : v.kind = .smooth) {mm : Option (ℝ × ℝ)} {cs : List Loaded} (h : Shown v mm cs) {c : Loaded} (hc : c ∈ cs)
    (F : List Plane) (hF : InView F c.2) : rangeFrustum (grow (chunkBox v mm c.1)) F := by
  obtain ⟨hb, _⟩ := shown_inv h c hc
  simp only [buildMesh, hk] at hb
  refine inView_drawn (fun p hp => ?_) hF
  obtain ⟨⟨h1, h2⟩, ⟨h3, h4⟩, ⟨h5, h6⟩⟩ := smooth_box hb p hp
  simp only [View.build] at h1 h2 h3 h4 h5 h6
  simp only [chunkBox, hk, InBox, grow]
  refine ⟨⟨h1, ?_⟩, ⟨h3, ?_⟩, ⟨h5, ?_⟩⟩ <;> linarith

theorem densities_range (v : View) (pos : I3) : ∃ lo hi, IsLeast (densities v pos) lo ∧ IsGreatest (densities v pos) hi := by
  have key : ∀ (n : Nat) (g : Nat → ℝ), 0 < n → ∃ lo hi, IsLeast { r | ∃ i < n, r = g i } lo ∧ IsGreatest { r | ∃ i < n, r = g i } hi := by
    intro n g hn
    induction n with
    | zero => omega
    | succ n ih =>
      have e : { r | ∃ i < n + 1, r = g i } = insert (g n) { r | ∃ i < n, r = g i } := by
        ext r
        simp only [Set.mem_setOf_eq, Set.mem_insert_iff]
        constructor
        · rintro ⟨i, hi, rfl⟩
          rcases Nat.lt_succ_iff_lt_or_eq.mp hi with h | rfl
          · exact Or.inr ⟨i, h, rfl⟩
          · exact Or.inl rfl
        · rintro (rfl | ⟨i, hi, rfl⟩)
          · exact ⟨n, by omega, rfl⟩
          · exact ⟨i, by omega, rfl⟩
      rw [e]
      rcases Nat.eq_zero_or_pos n with rfl | hp
      · refine ⟨g 0, g 0, ?_, ?_⟩ <;> simp
      · obtain ⟨lo, hi, h1, h2⟩ := ih hp
        exact ⟨_, _, h1.insert _, h2.insert _⟩
  unfold densities
  cases v.kind
  · exact key _ _ (by positivity)
  · exact key _ _ (by positivity)
  · exact key _ _ (by positivity)

theorem shown_one (v : View) (pos : I3) {m : List (V3 × ℝ) × List Nat} (h : buildMesh v pos = some m) : ∃ mm, Shown v mm [(pos, m)] := by
  obtain ⟨lo, hi, h1, h2⟩ := densities_range v pos
  exact ⟨_, Shown.pop .start h h1 h2⟩

/-- A small solid ball at the origin, in chunks of the size of the program. -/
noncomputable def ballView (k : MeshKind) : View := ⟨k, 128, 1 / 2, false, fun x y z => x ^ 2 + y ^ 2 + z ^ 2, fun x _ => x, 1⟩

theorem ballView_field (k : MeshKind) (pos : I3) : field ((ballView k).build pos) = field ball := rfl

theorem ball_vertex : (gpos (field ball) (1 / 2) ⟨0, -1, 0⟩ (gpoint (field ball) (1 / 2) ⟨0, -1, 0⟩ 4)) = ⟨1 / 6, -1 / 6, 1 / 6⟩ := by
  have hs := fun v : I3 => ball_solid v
  simp only [ball] at hs
  have hc : cellCode (cube (field ball) ⟨0, -1, 0⟩) (1 / 2) 2 0 = 251 := by
    have e : ∀ v : I3, field ball v > 1 / 2 ↔ v ≠ ⟨0, 0, 0⟩ := fun v => by rw [gt_iff_lt, ← not_le]; exact not_congr (ball_solid v)
    simp only [cellCode, cube, Nat.zero_add, Nat.reduceAdd, Nat.reduceMul, e]
    simp [codeOf]
  have hp : gpoint (field ball) (1 / 2) ⟨0, -1, 0⟩ 4 = 400 := by
    unfold gpoint; rw [hc]; decide +kernel
  rw [hp]
  have hedges : edgesOf 400 = [4, 7, 8] := by decide
  simp only [gpos, vert, hedges, List.map_cons, List.map_nil, List.foldl_cons, List.foldl_nil, edgePoint, cube, v3_add, I3.toV, field, ball,
    Bool.false_eq_true, if_false, Nat.zero_add, Nat.reduceAdd, Nat.reduceMul, List.length_cons, List.length_nil]
  norm_num

theorem assembled_mem {f : I3 → ℝ} {iso : ℝ} {l : List (I3 × Axis)} {T : List V3} (h : Assembled f iso l T) : 3 ∣ T.length ∧ ∀ v a, (v, a) ∈ l →
    ∃ T', QuadAt f iso v a T' ∧ ∀ t ∈ trianglesOf T', t ∈ trianglesOf T := by
  induction h with
  | nil => simp
  | @snoc l T v a T' _ hq ih =>
    have h3 : 3 ∣ T'.length := by
      unfold QuadAt at hq
      split at hq
      · obtain ⟨r, _, rfl⟩ := hq; simp [quadOf]
      · simp [hq]
    refine ⟨by rw [List.length_append]; exact dvd_add ih.1 h3, fun w b hw => ?_⟩
    rw [tris_append _ _ ih.1]
    rcases List.mem_append.mp hw with hw | hw
    · obtain ⟨T'', h1, h2⟩ := ih.2 w b hw
      exact ⟨T'', h1, fun t ht => List.mem_append_left _ (h2 t ht)⟩
    · simp only [List.mem_singleton, Prod.mk.injEq] at hw
      obtain ⟨rfl, rfl⟩ := hw
      exact ⟨T', hq, fun t ht => List.mem_append_right _ ht⟩

/-- A camera that sees the slab of height `lo` to `hi` around the vertical axis: the six planes of a box. -/
noncomputable def slab (lo hi : ℝ) : List Plane :=
  [⟨⟨1, 0, 0⟩, 10⟩, ⟨⟨-1, 0, 0⟩, 10⟩, ⟨⟨0, 1, 0⟩, -lo⟩, ⟨⟨0, -1, 0⟩, hi⟩, ⟨⟨0, 0, 1⟩, 10⟩, ⟨⟨0, 0, -1⟩, 10⟩]

/-- **C68**, negation for smooth meshes: the surface of a small ball at the origin; a camera that looks at the part of it below the height -1/12 sees triangles of
the chunk at the origin, but the chunk is not drawn, because its mesh reaches one cell below its box. -/
theorem C68_smooth_vanishes : ∃ mm m, Shown (ballView .smooth) mm [(⟨0, 0, 0⟩, m)] ∧ InView (slab (-1) (-1 / 12)) m ∧
    ¬ Drawn (ballView .smooth) mm (⟨0, 0, 0⟩, m) (slab (-1) (-1 / 12)) := by
  obtain ⟨m, hm, _, hA, _⟩ := buildDmc_spec ((ballView .smooth).build ⟨0, 0, 0⟩)
  obtain ⟨mm, hs⟩ := shown_one (ballView .smooth) ⟨0, 0, 0⟩ (m := m) hm
  refine ⟨mm, m, hs, ?_, ?_⟩
  · rw [ballView_field] at hA
    have hin : ((⟨0, 0, 0⟩ : I3), Axis.x) ∈ jobs ((ballView .smooth).build ⟨0, 0, 0⟩).size ((ballView .smooth).build ⟨0, 0, 0⟩).pos
        ((ballView .smooth).build ⟨0, 0, 0⟩).size := by
      rw [mem_jobs]; simp [InChunk, View.build, ballView]
    obtain ⟨T', hq, ht⟩ := (assembled_mem hA).2 _ _ hin
    have hc : Crosses (field ball) (1 / 2) ⟨0, 0, 0⟩ .x := by
      have := ball_solid; simp only [ball] at this
      unfold Crosses
      rw [show (1 / 2 : ℝ) = ball.iso from rfl, ball_solid, ball_solid]; simp [I3.next]
    unfold QuadAt at hq
    rw [show ((ballView .smooth).build ⟨0, 0, 0⟩).iso = 1 / 2 from rfl, if_pos hc] at hq
    have hlt : field ball ⟨0, 0, 0⟩ < field ball (I3.next ⟨0, 0, 0⟩ .x) := by simp [field, ball, I3.next]
    rw [if_pos hlt] at hq
    obtain ⟨r, _, rfl⟩ := hq
    refine ⟨_, ht _ (by simp only [quadOf, trianglesOf]; exact List.mem_cons_self ..), 1, 0, 0, by norm_num, by norm_num, by norm_num, by norm_num, ?_⟩
    have hv : qpos (field ball) (1 / 2) ⟨0, 0, 0⟩ .x 2 = ⟨1 / 6, -1 / 6, 1 / 6⟩ := by
      rw [← ball_vertex]; simp [qpos, dualAt, around]
    intro P hP
    simp only [bary, hv]
    simp only [slab, List.mem_cons, List.not_mem_nil, or_false] at hP
    rcases hP with rfl | rfl | rfl | rfl | rfl | rfl <;> norm_num
  · intro h
    refine h ⟨⟨0, -1, 0⟩, -1 / 12⟩ (by simp [slab]) ?_
    simp only [chunkBox, ballView, dot, v3_add, mk_sub]
    norm_num

/-- A slope that rises with x, scaled by a multiplier. -/
noncomputable def slopeView (k : ℝ) : View := ⟨.heights, 128, 0, false, fun _ _ _ => 0, fun x _ => x, k⟩

theorem flat_tris {α : Type} (Q : α × List (V3 × ℝ)) (ps : List (α × List (V3 × ℝ))) (h3 : ∀ P ∈ ps, 3 ∣ P.2.length) (hQ : Q ∈ ps) :
    ∀ t ∈ trianglesOf (Q.2.map Prod.fst), t ∈ trianglesOf ((ps.flatMap Prod.snd).map Prod.fst) := by
  induction ps with
  | nil => simp at hQ
  | cons P r ih =>
    intro t ht
    rw [List.flatMap_cons, List.map_append, tris_append _ _ (by rw [List.length_map]; exact h3 P (List.mem_cons_self ..)), List.mem_append]
    rcases List.mem_cons.mp hQ with rfl | h
    · exact Or.inl ht
    · exact Or.inr (ih (fun P hP => h3 P (List.mem_cons_of_mem _ hP)) h t ht)

theorem slope_seen (k : ℝ) {m : List (V3 × ℝ) × List Nat} (hm : buildHeight ((slopeView k).hbuild ⟨0, 0, 0⟩) = some m) : InView (slab (-10) 10) m := by
  obtain ⟨ps, e1, _, e3, e4⟩ := C48_one_patch_per_square hm
  obtain ⟨Q, hQ, hu⟩ := List.mem_map.mp ((e3 (0, 0)).mpr (by simp [InTile, View.hbuild, slopeView]))
  obtain ⟨B, C, hT⟩ : ∃ B C, ((⟨0, 0, 0⟩ : V3), B, C) ∈ trianglesOf (Q.2.map Prod.fst) := by
    obtain ⟨l, h | h, _⟩ := e4 Q hQ <;> rw [h.1, hu] <;> simp [trianglesOf, terrain, slopeView, View.hbuild]
  refine ⟨(⟨0, 0, 0⟩, B, C), ?_, 1, 0, 0, by norm_num, by norm_num, by norm_num, by norm_num, ?_⟩
  · rw [cornersOf_lit, e1]
    refine flat_tris Q ps (fun P hP => ?_) hQ _ hT
    obtain ⟨l, h | h, _⟩ := e4 P hP <;> simp [h.1]
  · intro P hP
    simp only [bary]
    simp only [slab, List.mem_cons, List.not_mem_nil, or_false] at hP
    rcases hP with rfl | rfl | rfl | rfl | rfl | rfl <;> norm_num

/-- Non-vacuity of `C68_heights_partial`: the slope, right way up, seen and drawn. -/
example : ∃ mm m, Shown (slopeView 2) mm [(⟨0, 0, 0⟩, m)] ∧ InView (slab (-10) 10) m ∧ Drawn (slopeView 2) mm (⟨0, 0, 0⟩, m) (slab (-10) 10) := by
  obtain ⟨m, hm, _, _⟩ := buildHeight_spec ((slopeView 2).hbuild ⟨0, 0, 0⟩)
  obtain ⟨mm, hs⟩ := shown_one (slopeView 2) ⟨0, 0, 0⟩ (m := m) hm
  exact ⟨mm, m, hs, slope_seen 2 hm, C68_heights_partial rfl (by norm_num [slopeView]) hs (List.mem_singleton_self _) _ (slope_seen 2 hm)⟩

/-- Non-vacuity of `C68_blocks`: the ball is one block; it is seen and drawn.  And a camera above it does not see it, and the chunk is then skipped. -/
example : ∃ mm m, Shown (ballView .blocks) mm [(⟨0, 0, 0⟩, m)] ∧ InView (slab (-10) 10) m ∧ Drawn (ballView .blocks) mm (⟨0, 0, 0⟩, m) (slab (-10) 10) ∧
    ¬ Drawn (ballView .blocks) mm (⟨0, 0, 0⟩, m) (slab 130 140) := by
  obtain ⟨m, hm, _, _⟩ := C47_mesh_wellformed ((ballView .blocks).build ⟨0, 0, 0⟩)
  obtain ⟨mm, hs⟩ := shown_one (ballView .blocks) ⟨0, 0, 0⟩ (m := m) hm
  have hv : InView (slab (-10) 10) m := by
    obtain ⟨ps, e1, _, e3, e4⟩ := C47_one_face_per_exposed hm
    obtain ⟨Q, hQ, hu⟩ := List.mem_map.mp ((e3 (⟨0, 0, 0⟩, .x, true)).mpr
      ⟨by simp [InChunk, View.build, ballView], (ball_exposed (⟨0, 0, 0⟩, .x, true)).mpr rfl⟩)
    obtain ⟨P0, P1, P2, P3, P4, P5, hT, hc, _⟩ := e4 Q hQ
    obtain ⟨c1, c2, c3, _⟩ := (hc P0).mpr (List.mem_cons_self ..)
    rw [hu] at c1 c2 c3
    refine ⟨(⟨P0.x, P0.y, P0.z⟩, ⟨P1.x, P1.y, P1.z⟩, ⟨P2.x, P2.y, P2.z⟩), ?_, 1, 0, 0, by norm_num, by norm_num, by norm_num, by norm_num, ?_⟩
    · rw [cornersOf_lit, e1]
      refine flat_tris Q ps (fun P hP => ?_) hQ _ (by rw [hT]; simp [trianglesOf])
      obtain ⟨_, _, _, _, _, _, h, _⟩ := e4 P hP
      simp [h]
    · intro P hP
      simp only [bary]
      simp only at c1 c2 c3
      simp only [slab, List.mem_cons, List.not_mem_nil, or_false] at hP
      rcases hP with rfl | rfl | rfl | rfl | rfl | rfl <;> rcases c1 with c1 | c1 <;> rcases c2 with c2 | c2 <;> rcases c3 with c3 | c3 <;>
        norm_num [c1, c2, c3]
  refine ⟨mm, m, hs, hv, C68_blocks rfl hs (List.mem_singleton_self _) _ hv, fun h => h ⟨⟨0, 1, 0⟩, -130⟩ (by simp [slab]) ?_⟩
  simp only [chunkBox, ballView, dot, v3_add, mk_sub]
  norm_num

/-- **C68**, negation for height maps with a negative multiplier: the box is turned inside out, and a chunk in full view is not drawn. -/
theorem C68_heights_vanish : ∃ mm m, Shown (slopeView (-1)) mm [(⟨0, 0, 0⟩, m)] ∧ InView (slab (-10) 10) m ∧
    ¬ Drawn (slopeView (-1)) mm (⟨0, 0, 0⟩, m) (slab (-10) 10) := by
  obtain ⟨m, hm, _, _⟩ := buildHeight_spec ((slopeView (-1)).hbuild ⟨0, 0, 0⟩)
  obtain ⟨lo, hi, hl, hg⟩ := densities_range (slopeView (-1)) ⟨0, 0, 0⟩
  have hden : ∀ x : ℤ, 0 ≤ x → x ≤ 128 → (x : ℝ) ∈ densities (slopeView (-1)) ⟨0, 0, 0⟩ := fun x h0 h1 =>
    height_density (v := slopeView (-1)) rfl (x := x) (z := 0) ⟨h0, by simpa [slopeView] using h1⟩ ⟨le_refl _, by simp [slopeView]⟩
  have h0 : lo ≤ 0 := by have := hl.2 (hden 0 (by norm_num) (by norm_num)); simpa using this
  have h1 : 128 ≤ hi := by have := hg.2 (hden 128 (by norm_num) (by norm_num)); simpa using this
  have h2 : 0 ≤ lo := by
    obtain ⟨i, _, e⟩ := hl.1
    rw [e]; simp only [hdensity, View.hbuild, slopeView]; positivity
  have hlo : lo = 0 := le_antisymm h0 h2
  refine ⟨_, m, Shown.pop .start hm hl hg, slope_seen (-1) hm, fun h => h ⟨⟨0, 1, 0⟩, 10⟩ (by simp [slab]) ?_⟩
  simp only [chunkBox, slopeView, dot, v3_add, mk_sub, merge, Option.getD_some, hlo]
  norm_num
  linarith

end FastNoise.Mesh
