import Verif.Bloxel
import Verif.BloxelSpec
import Verif.MeshChunk
import Verif.MeshClosed

/-! Proofs about the block mesh of one chunk. -/

namespace FastNoise.Mesh

/-- The assembled output of a list of jobs. -/
inductive Asm {J C : Type} (Q : J → List C → Prop) : List J → List C → Prop
  | nil : Asm Q [] []
  | snoc {l T j T'} : Asm Q l T → Q j T' → Asm Q (l ++ [j]) (T ++ T')

/-- Sum of lattice vectors. -/
def I3.plus (u w : I3) : I3 := ⟨u.x + w.x, u.y + w.y, u.z + w.z⟩

/-- Index difference of a lattice vector. -/
def lin (S : ℤ) (w : I3) : ℤ := w.x + w.y * S + w.z * (S * S)

/-- All components between -1 and 1. -/
def Small (w : I3) : Prop := (-1 ≤ w.x ∧ w.x ≤ 1) ∧ (-1 ≤ w.y ∧ w.y ≤ 1) ∧ (-1 ≤ w.z ∧ w.z ≤ 1)

theorem at_small (b : Build) {S x y z : Nat} (hx : 1 ≤ x ∧ x + 1 < S) (hy : 1 ≤ y ∧ y + 1 < S) (hz : 1 ≤ z ∧ z + 1 < S)
    {v : I3} (hv : v = ⟨b.pos.x + x - 1, b.pos.y + y - 1, b.pos.z + z - 1⟩) {w : I3} (hw : Small w) {i : ℤ} (hi : i = idx S x y z + lin S w) :
    (0 ≤ i ∧ i < (S * S * S : Nat)) ∧ at' (density b S (-1)) i = field b (v.plus w) := by
  obtain ⟨⟨w1, w2⟩, ⟨w3, w4⟩, ⟨w5, w6⟩⟩ := hw
  obtain ⟨x', ex⟩ : ∃ x' : Nat, (x' : ℤ) = x + w.x := ⟨(x + w.x).toNat, by omega⟩
  obtain ⟨y', ey⟩ : ∃ x' : Nat, (x' : ℤ) = y + w.y := ⟨(y + w.y).toNat, by omega⟩
  obtain ⟨z', ez⟩ : ∃ x' : Nat, (x' : ℤ) = z + w.z := ⟨(z + w.z).toNat, by omega⟩
  have e : i = (idx S x' y' z' : Nat) := by
    rw [hi]; unfold idx lin; push_cast; rw [ex, ey, ez]; ring
  refine ⟨readable_idx e (by omega) (by omega) (by omega), ?_⟩
  unfold at'
  rw [e, Int.toNat_natCast, density_eq, latt_idx b (-1) (by omega) (by omega), hv, ex, ey, ez]
  congr 1
  ext <;> simp only [I3.plus] <;> ring

/-- Corner number `i` (00, 01, 10, 11) of a face, as the code lists them. -/
def fcorner (j : VFace) (i : Nat) : I3 :=
  let o : List I3 := match j.2.1, j.2.2 with
    | .x, true => [⟨1, 0, 0⟩, ⟨1, 1, 0⟩, ⟨1, 0, 1⟩, ⟨1, 1, 1⟩]
    | .x, false => [⟨0, 1, 0⟩, ⟨0, 0, 0⟩, ⟨0, 1, 1⟩, ⟨0, 0, 1⟩]
    | .y, true => [⟨0, 1, 0⟩, ⟨0, 1, 1⟩, ⟨1, 1, 0⟩, ⟨1, 1, 1⟩]
    | .y, false => [⟨0, 0, 1⟩, ⟨0, 0, 0⟩, ⟨1, 0, 1⟩, ⟨1, 0, 0⟩]
    | .z, true => [⟨0, 0, 1⟩, ⟨1, 0, 1⟩, ⟨0, 1, 1⟩, ⟨1, 1, 1⟩]
    | .z, false => [⟨1, 0, 0⟩, ⟨0, 0, 0⟩, ⟨1, 1, 0⟩, ⟨0, 1, 0⟩]
  j.1.plus (o.getD i ⟨0, 0, 0⟩)

open Classical in
/-- What is appended for a face. -/
def FaceAt (f : I3 → ℝ) (iso : ℝ) (j : VFace) (T : List (V3 × ℝ)) : Prop :=
  if Exposed f iso j then ∃ r, (r = 0 ∨ r = 2) ∧ T = quadOf (fun i => ((fcorner j i).toV, shade f iso j (fcorner j i))) 0 r else T = []

/-- The code's description of a face agrees with the lattice face. -/
structure Describes (F : Face) (S : ℤ) (a : Axis) (s : Bool) (n α β : I3) : Prop where
  facing : F.facing = lin S n
  offA : F.offA = lin S α
  offB : F.offB = lin S β
  side : ∀ v : I3, v.plus n = v.side a s
  light : F.light = if s then 0.7 * lightDir a + 0.3 else 1 - 0.7 * lightDir a
  c00 : ∀ v : I3, v.toV + F.p00 = (fcorner (v, a, s) 0).toV
  c01 : ∀ v : I3, v.toV + F.p01 = (fcorner (v, a, s) 1).toV
  c10 : ∀ v : I3, v.toV + F.p10 = (fcorner (v, a, s) 2).toV
  c11 : ∀ v : I3, v.toV + F.p11 = (fcorner (v, a, s) 3).toV
  small : ∀ i k : ℤ, -1 ≤ i → i ≤ 1 → -1 ≤ k → k ≤ 1 → Small ⟨n.x + i * α.x + k * β.x, n.y + i * α.y + k * β.y, n.z + i * α.z + k * β.z⟩
  a0 : ∀ v : I3, (fcorner (v, a, s) 0).across a.others.1 (v.side a s) = v.plus ⟨n.x - α.x, n.y - α.y, n.z - α.z⟩
  a1 : ∀ v : I3, (fcorner (v, a, s) 1).across a.others.1 (v.side a s) = v.plus ⟨n.x + α.x, n.y + α.y, n.z + α.z⟩
  a2 : ∀ v : I3, (fcorner (v, a, s) 2).across a.others.1 (v.side a s) = v.plus ⟨n.x - α.x, n.y - α.y, n.z - α.z⟩
  a3 : ∀ v : I3, (fcorner (v, a, s) 3).across a.others.1 (v.side a s) = v.plus ⟨n.x + α.x, n.y + α.y, n.z + α.z⟩
  b0 : ∀ v : I3, (fcorner (v, a, s) 0).across a.others.2 (v.side a s) = v.plus ⟨n.x - β.x, n.y - β.y, n.z - β.z⟩
  b1 : ∀ v : I3, (fcorner (v, a, s) 1).across a.others.2 (v.side a s) = v.plus ⟨n.x - β.x, n.y - β.y, n.z - β.z⟩
  b2 : ∀ v : I3, (fcorner (v, a, s) 2).across a.others.2 (v.side a s) = v.plus ⟨n.x + β.x, n.y + β.y, n.z + β.z⟩
  b3 : ∀ v : I3, (fcorner (v, a, s) 3).across a.others.2 (v.side a s) = v.plus ⟨n.x + β.x, n.y + β.y, n.z + β.z⟩
  d0 : ∀ v : I3, (fcorner (v, a, s) 0).across a.others.1 ((fcorner (v, a, s) 0).across a.others.2 (v.side a s)) = v.plus ⟨n.x - α.x - β.x, n.y - α.y - β.y, n.z - α.z - β.z⟩
  d1 : ∀ v : I3, (fcorner (v, a, s) 1).across a.others.1 ((fcorner (v, a, s) 1).across a.others.2 (v.side a s)) = v.plus ⟨n.x + α.x - β.x, n.y + α.y - β.y, n.z + α.z - β.z⟩
  d2 : ∀ v : I3, (fcorner (v, a, s) 2).across a.others.1 ((fcorner (v, a, s) 2).across a.others.2 (v.side a s)) = v.plus ⟨n.x - α.x + β.x, n.y - α.y + β.y, n.z - α.z + β.z⟩
  d3 : ∀ v : I3, (fcorner (v, a, s) 3).across a.others.1 ((fcorner (v, a, s) 3).across a.others.2 (v.side a s)) = v.plus ⟨n.x + α.x + β.x, n.y + α.y + β.y, n.z + α.z + β.z⟩

/-- The jobs of a voxel, in code order. -/
def voxelJobs (v : I3) : List VFace := [(v, .x, true), (v, .x, false), (v, .y, true), (v, .y, false), (v, .z, true), (v, .z, false)]

theorem v3_add (a b : V3) : a + b = ⟨a.x + b.x, a.y + b.y, a.z + b.z⟩ := rfl

theorem faces_describe (S : ℤ) : List.Forall₂ (fun F (as : Axis × Bool) => ∃ n α β, Describes F S as.1 as.2 n α β) (faces S)
    [(.x, true), (.x, false), (.y, true), (.y, false), (.z, true), (.z, false)] := by
  refine .cons ⟨⟨1, 0, 0⟩, ⟨0, 1, 0⟩, ⟨0, 0, 1⟩, ?_⟩ (.cons ⟨⟨-1, 0, 0⟩, ⟨0, -1, 0⟩, ⟨0, 0, 1⟩, ?_⟩ (.cons ⟨⟨0, 1, 0⟩, ⟨0, 0, 1⟩, ⟨1, 0, 0⟩, ?_⟩
    (.cons ⟨⟨0, -1, 0⟩, ⟨0, 0, -1⟩, ⟨1, 0, 0⟩, ?_⟩ (.cons ⟨⟨0, 0, 1⟩, ⟨1, 0, 0⟩, ⟨0, 1, 0⟩, ?_⟩ (.cons ⟨⟨0, 0, -1⟩, ⟨-1, 0, 0⟩, ⟨0, 1, 0⟩, ?_⟩ .nil))))) <;>
  · constructor
    · simp only [lin]; ring
    · simp only [lin]; ring
    · simp only [lin]; ring
    · intro v; ext <;> simp [I3.plus, I3.side] <;> try ring
    · simp only [sun, ambient, lightDir, if_true, Bool.false_eq_true, if_false]; norm_num
    · intro v; simp [v3_add, I3.toV, fcorner, I3.plus]
    · intro v; simp [v3_add, I3.toV, fcorner, I3.plus]
    · intro v; simp [v3_add, I3.toV, fcorner, I3.plus]
    · intro v; simp [v3_add, I3.toV, fcorner, I3.plus]
    · intro i k h1 h2 h3 h4; simp only [Small]; omega
    all_goals
      intro v
      simp only [I3.across, I3.side, Axis.others, fcorner, I3.plus, List.getD_cons_zero, List.getD_cons_succ, I3.mk.injEq]
      refine ⟨?_, ?_, ?_⟩ <;> ring

open Classical in
theorem occl_bits (f : I3 → ℝ) (iso : ℝ) (j : VFace) (P A B C : I3) (hA : P.across j.2.1.others.1 (j.1.side j.2.1 j.2.2) = A)
    (hB : P.across j.2.1.others.2 (j.1.side j.2.1 j.2.2) = B) (hC : P.across j.2.1.others.1 (P.across j.2.1.others.2 (j.1.side j.2.1 j.2.2)) = C) :
    bit (decide (f A ≤ iso)) + bit (decide (f B ≤ iso)) + bit ((decide (f A ≤ iso) && decide (f B ≤ iso)) || decide (f C ≤ iso)) = occluders f iso j P := by
  rw [hB] at hC
  unfold occluders
  simp only [hA, hB, hC, bit]
  by_cases h1 : f A ≤ iso <;> by_cases h2 : f B ≤ iso <;> by_cases h3 : f C ≤ iso <;> simp [h1, h2, h3]

theorem litCorners_grows {d d' : List (V3 × ℝ)} {l : List Nat} (h : ∀ i ∈ l, i < d.length) (hg : ∃ e, d' = d ++ e) :
    litCorners (d', l) = litCorners (d, l) := by
  obtain ⟨e, rfl⟩ := hg
  unfold litCorners
  induction l with
  | nil => rfl
  | cons a l ih =>
    simp only [List.filterMap_cons, List.mem_cons, forall_eq_or_imp] at *
    rw [ih h.2, List.getElem?_append_left h.1]

theorem lit_step {d : List (V3 × ℝ)} {l : List Nat} (h : WellFormed (d, l)) (c : Nat → V3 × ℝ) {r : Nat} (hr : r = 0 ∨ r = 2) :
    WellFormed (d ++ [c 0, c 1, c 2, c 3], l ++ [d.length, d.length + 3 - r, d.length + 2, d.length + 3, d.length + r, d.length + 1]) ∧
    litCorners (d ++ [c 0, c 1, c 2, c 3], l ++ [d.length, d.length + 3 - r, d.length + 2, d.length + 3, d.length + r, d.length + 1]) =
      litCorners (d, l) ++ quadOf c 0 r := by
  refine ⟨⟨?_, ?_⟩, ?_⟩
  · intro i hi
    rcases List.mem_append.mp hi with hi | hi
    · have := h.1 i hi
      simp only [List.length_append, List.length_cons, List.length_nil] at this ⊢
      omega
    · simp only [List.mem_cons, List.not_mem_nil, or_false] at hi
      simp only [List.length_append, List.length_cons, List.length_nil]
      omega
  · have := h.2
    simp only [List.length_append, List.length_cons, List.length_nil] at this ⊢
    omega
  · have e1 := litCorners_grows (l := l) h.1 ⟨[c 0, c 1, c 2, c 3], rfl⟩
    have e2 : ∀ dd (l l' : List Nat), litCorners (dd, l ++ l') = litCorners (dd, l) ++ litCorners (dd, l') := by
      intro dd l l'; unfold litCorners; simp [List.filterMap_append]
    rw [e2, e1]
    congr 1
    have g : ∀ k, k < 4 → (d ++ [c 0, c 1, c 2, c 3])[d.length + k]? = some (c k) := by
      intro k hk
      rw [List.getElem?_append_right (by omega), Nat.add_sub_cancel_left]
      have : k = 0 ∨ k = 1 ∨ k = 2 ∨ k = 3 := by omega
      rcases this with rfl | rfl | rfl | rfl <;> rfl
    have g0 := g 0 (by omega)
    rw [Nat.add_zero] at g0
    unfold litCorners
    rcases hr with rfl | rfl
    · simp only [Nat.sub_zero, Nat.add_zero, List.filterMap_cons, List.filterMap_nil, g0, g 1 (by omega), g 2 (by omega), g 3 (by omega), quadOf]
    · simp only [show d.length + 3 - 2 = d.length + 1 by omega, List.filterMap_cons, List.filterMap_nil, g0, g 1 (by omega), g 2 (by omega), g 3 (by omega), quadOf]

theorem tryFace_spec (b : Build) {S x y z : Nat} (hx : 1 ≤ x ∧ x + 1 < S) (hy : 1 ≤ y ∧ y + 1 < S) (hz : 1 ≤ z ∧ z + 1 < S)
    {v : I3} (hv : v = ⟨b.pos.x + x - 1, b.pos.y + y - 1, b.pos.z + z - 1⟩) {F : Face} {a : Axis} {s : Bool} {n α β : I3}
    (hD : Describes F S a s n α β) (hsol : field b v ≤ b.iso) {m : List (V3 × ℝ) × List Nat} (hm : WellFormed m) :
    ∃ m', tryFace (density b S (-1)) (S * S * S) b.iso (idx S x y z) v.toV F m = some m' ∧ WellFormed m' ∧
      ∃ T, litCorners m' = litCorners m ++ T ∧ FaceAt (field b) b.iso (v, a, s) T := by
  have rd : ∀ i k : ℤ, -1 ≤ i → i ≤ 1 → -1 ≤ k → k ≤ 1 → ∀ e, e = (idx S x y z : ℤ) + F.facing + i * F.offA + k * F.offB →
      ∀ u : I3, u = v.plus ⟨n.x + i * α.x + k * β.x, n.y + i * α.y + k * β.y, n.z + i * α.z + k * β.z⟩ →
      (0 ≤ e ∧ e < (S * S * S : Nat)) ∧ at' (density b S (-1)) e = field b u := by
    intro i k h1 h2 h3 h4 e he u hu
    rw [hu]
    refine at_small b hx hy hz hv (hD.small i k h1 h2 h3 h4) ?_
    rw [he, hD.facing, hD.offA, hD.offB]; unfold lin; ring
  have r00 := rd 0 0 (by omega) (by omega) (by omega) (by omega) (idx S x y z + F.facing) (by ring) (v.side a s) (by rw [← hD.side]; simp)
  have rA0 := rd (-1) 0 (by omega) (by omega) (by omega) (by omega) (idx S x y z + F.facing - F.offA) (by ring) _ (congrArg _ (show (⟨n.x - α.x, n.y - α.y, n.z - α.z⟩ : I3) = _ by ext <;> simp only <;> ring))
  have rA1 := rd 1 0 (by omega) (by omega) (by omega) (by omega) (idx S x y z + F.facing + F.offA) (by ring) _ (congrArg _ (show (⟨n.x + α.x, n.y + α.y, n.z + α.z⟩ : I3) = _ by ext <;> simp only <;> ring))
  have rB0 := rd 0 (-1) (by omega) (by omega) (by omega) (by omega) (idx S x y z + F.facing - F.offB) (by ring) _ (congrArg _ (show (⟨n.x - β.x, n.y - β.y, n.z - β.z⟩ : I3) = _ by ext <;> simp only <;> ring))
  have rB1 := rd 0 1 (by omega) (by omega) (by omega) (by omega) (idx S x y z + F.facing + F.offB) (by ring) _ (congrArg _ (show (⟨n.x + β.x, n.y + β.y, n.z + β.z⟩ : I3) = _ by ext <;> simp only <;> ring))
  have rC00 := rd (-1) (-1) (by omega) (by omega) (by omega) (by omega) (idx S x y z + F.facing - F.offA - F.offB) (by ring) _ (congrArg _ (show (⟨n.x - α.x - β.x, n.y - α.y - β.y, n.z - α.z - β.z⟩ : I3) = _ by ext <;> simp only <;> ring))
  have rC01 := rd (-1) 1 (by omega) (by omega) (by omega) (by omega) (idx S x y z + F.facing - F.offA + F.offB) (by ring) _ (congrArg _ (show (⟨n.x - α.x + β.x, n.y - α.y + β.y, n.z - α.z + β.z⟩ : I3) = _ by ext <;> simp only <;> ring))
  have rC10 := rd 1 (-1) (by omega) (by omega) (by omega) (by omega) (idx S x y z + F.facing + F.offA - F.offB) (by ring) _ (congrArg _ (show (⟨n.x + α.x - β.x, n.y + α.y - β.y, n.z + α.z - β.z⟩ : I3) = _ by ext <;> simp only <;> ring))
  have rC11 := rd 1 1 (by omega) (by omega) (by omega) (by omega) (idx S x y z + F.facing + F.offA + F.offB) (by ring) _ (congrArg _ (show (⟨n.x + α.x + β.x, n.y + α.y + β.y, n.z + α.z + β.z⟩ : I3) = _ by ext <;> simp only <;> ring))
  have rV := at_small b hx hy hz hv (w := ⟨0, 0, 0⟩) (by simp [Small]) (i := (idx S x y z : ℤ)) (by simp [lin])
  rw [show v.plus ⟨0, 0, 0⟩ = v by simp [I3.plus]] at rV
  unfold tryFace
  rw [if_pos (by intro i hi; rw [List.mem_singleton] at hi; rw [hi]; exact r00.1), r00.2]
  by_cases hex : field b (v.side a s) > b.iso
  · rw [if_pos hex]
    have hE : Exposed (field b) b.iso (v, a, s) := ⟨hsol, hex⟩
    unfold addFace
    rw [if_pos (by
      intro i hi
      simp only [List.mem_cons, List.not_mem_nil, or_false] at hi
      rcases hi with rfl | rfl | rfl | rfl | rfl | rfl | rfl | rfl | rfl
      exacts [rA0.1, rA1.1, rB0.1, rB1.1, rC00.1, rC01.1, rC10.1, rC11.1, rV.1])]
    simp only [rA0.2, rA1.2, rB0.2, rB1.2, rC00.2, rC01.2, rC10.2, rC11.2, rV.2]
    simp only [occl_bits (field b) b.iso (v, a, s) _ _ _ _ (hD.a0 v) (hD.b0 v) (hD.d0 v), occl_bits (field b) b.iso (v, a, s) _ _ _ _ (hD.a1 v) (hD.b1 v) (hD.d1 v),
      occl_bits (field b) b.iso (v, a, s) _ _ _ _ (hD.a2 v) (hD.b2 v) (hD.d2 v), occl_bits (field b) b.iso (v, a, s) _ _ _ _ (hD.a3 v) (hD.b3 v) (hD.d3 v)]
    rw [hD.c00 v, hD.c01 v, hD.c10 v, hD.c11 v]
    have hl : ∀ k : ℝ, (1 - k * aoAdjust) * max ambient ((F.light - (b.iso - field b v) * 4) * |F.light - (b.iso - field b v) * 4|) =
        (1 - 0.3 * k) * faceLight (field b) b.iso (v, a, s) := by
      intro k
      have e1 : F.light - (b.iso - field b v) * 4 = (if s then 0.7 * lightDir a + 0.3 else 1 - 0.7 * lightDir a) - 4 * (b.iso - field b v) := by
        rw [hD.light]; ring
      unfold faceLight ambient aoAdjust
      simp only
      rw [e1, show k * (0.9 / 3) = (0.3 : ℝ) * k by ring]
    simp only [hl]
    have key : ∀ r, (r = 0 ∨ r = 2) → ∃ m', some (m.1 ++ [((fcorner (v, a, s) 0).toV, shade (field b) b.iso (v, a, s) (fcorner (v, a, s) 0)),
        ((fcorner (v, a, s) 1).toV, shade (field b) b.iso (v, a, s) (fcorner (v, a, s) 1)),
        ((fcorner (v, a, s) 2).toV, shade (field b) b.iso (v, a, s) (fcorner (v, a, s) 2)),
        ((fcorner (v, a, s) 3).toV, shade (field b) b.iso (v, a, s) (fcorner (v, a, s) 3))],
        m.2 ++ [m.1.length, m.1.length + 3 - r, m.1.length + 2, m.1.length + 3, m.1.length + r, m.1.length + 1]) = some m' ∧ WellFormed m' ∧
        ∃ T, litCorners m' = litCorners m ++ T ∧ FaceAt (field b) b.iso (v, a, s) T := by
      intro r hr'
      obtain ⟨w, c⟩ := lit_step (d := m.1) (l := m.2) hm (fun i => ((fcorner (v, a, s) i).toV, shade (field b) b.iso (v, a, s) (fcorner (v, a, s) i))) hr'
      refine ⟨_, rfl, w, _, c, ?_⟩
      unfold FaceAt
      rw [if_pos hE]
      exact ⟨r, hr', rfl⟩
    refine key _ ?_
    split
    · right; rfl
    · left; rfl
  · rw [if_neg hex]
    refine ⟨m, rfl, hm, [], by simp, ?_⟩
    unfold FaceAt
    rw [if_neg (fun h => hex h.2)]

end FastNoise.Mesh
