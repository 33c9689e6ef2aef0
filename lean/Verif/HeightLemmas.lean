import Verif.HeightSpec
import Verif.BloxelLemmas
import Verif.MeshWorld

/-! Proofs about the height map mesh. -/

namespace FastNoise.Mesh

theorem normalized_sq {a : V3} (h : 0 < sq a) : sq (normalized a) = 1 := by
  have hs : √(sq a) * √(sq a) = sq a := Real.mul_self_sqrt h.le
  have hp : 0 < √(sq a) := Real.sqrt_pos.mpr h
  unfold normalized
  generalize √(sq a) = r at *
  unfold sq at *
  field_simp
  nlinarith

theorem normalized_y {a : V3} (h : 0 < a.y) : 0 < sq a ∧ 0 < (normalized a).y := by
  have h1 : 0 < sq a := by unfold sq; nlinarith [mul_self_nonneg a.x, mul_self_nonneg a.z]
  exact ⟨h1, div_pos h (Real.sqrt_pos.mpr h1)⟩

theorem lit_bounds {n : V3} (h : sq n = 1) : 0.16 ≤ sq (mulV ⟨0.6, 1, 0.4⟩ n) ∧ sq (mulV ⟨0.6, 1, 0.4⟩ n) ≤ 1 := by
  unfold sq mulV at *
  constructor <;> nlinarith [mul_self_nonneg n.x, mul_self_nonneg n.y, mul_self_nonneg n.z]

theorem cross1 (x z a c d : ℝ) :
    cross ((⟨x + 1, c, z⟩ : V3) - ⟨x + 1, d, z + 1⟩) ((⟨x, a, z⟩ : V3) - ⟨x + 1, d, z + 1⟩) = ⟨a - c, 1, c - d⟩ := by
  ext <;> simp only [cross, mk_sub] <;> ring

theorem cross2 (x z a b d : ℝ) :
    cross ((⟨x, b, z + 1⟩ : V3) - ⟨x, a, z⟩) ((⟨x + 1, d, z + 1⟩ : V3) - ⟨x, a, z⟩) = ⟨b - d, 1, a - b⟩ := by
  ext <;> simp only [cross, mk_sub] <;> ring

theorem light_facts (x z a b c d : ℝ) :
    let l := hlight ⟨x, a, z⟩ ⟨x, b, z + 1⟩ ⟨x + 1, c, z⟩ ⟨x + 1, d, z + 1⟩
    (0.16 ≤ l ∧ l ≤ 1) ∧ ∀ p q : ℝ, b - a = q → c - a = p → d - a = p + q → l = ((0.6 * p) ^ 2 + 1 + (0.4 * q) ^ 2) / (p ^ 2 + 1 + q ^ 2) := by
  intro l
  have hl : l = sq (mulV ⟨0.6, 1, 0.4⟩ (normalized (normalized ⟨a - c, 1, c - d⟩ + normalized ⟨b - d, 1, a - b⟩))) := by
    show hlight _ _ _ _ = _
    unfold hlight
    rw [cross1, cross2]
  rw [hl]
  constructor
  · apply lit_bounds
    apply normalized_sq
    have h1 := (normalized_y (a := ⟨a - c, 1, c - d⟩) one_pos).2
    have h2 := (normalized_y (a := ⟨b - d, 1, a - b⟩) one_pos).2
    refine (normalized_y ?_).1
    rw [v3_add]
    exact add_pos h1 h2
  · intro p q hq hp hd
    have e1 : (⟨a - c, 1, c - d⟩ : V3) = ⟨-p, 1, -q⟩ := by ext <;> simp only <;> linarith
    have e2 : (⟨b - d, 1, a - b⟩ : V3) = ⟨-p, 1, -q⟩ := by ext <;> simp only <;> linarith
    rw [e1, e2]
    have hs : sq ⟨-p, 1, -q⟩ = p ^ 2 + 1 + q ^ 2 := by unfold sq; ring
    have hpos : 0 < p ^ 2 + 1 + q ^ 2 := by positivity
    have hr : √(p ^ 2 + 1 + q ^ 2) * √(p ^ 2 + 1 + q ^ 2) = p ^ 2 + 1 + q ^ 2 := Real.mul_self_sqrt hpos.le
    have hrp : 0 < √(p ^ 2 + 1 + q ^ 2) := Real.sqrt_pos.mpr hpos
    have hn : normalized (normalized ⟨-p, 1, -q⟩ + normalized ⟨-p, 1, -q⟩) = normalized ⟨-p, 1, -q⟩ := by
      have hu := normalized_sq (a := ⟨-p, 1, -q⟩) (by rw [hs]; exact hpos)
      generalize normalized ⟨-p, 1, -q⟩ = n at hu
      have h4 : sq (n + n) = 4 := by
        rw [v3_add]; unfold sq at hu ⊢; simp only; linarith
      have h2 : √(sq (n + n)) = 2 := by
        rw [h4, show (4 : ℝ) = 2 ^ 2 by norm_num, Real.sqrt_sq (by norm_num)]
      ext <;> simp only [normalized, h2] <;> simp only [v3_add] <;> ring
    rw [hn]
    unfold normalized
    rw [hs]
    generalize √(p ^ 2 + 1 + q ^ 2) = r at *
    simp only [sq, mulV]
    rw [eq_div_iff hpos.ne', ← hr]
    field_simp

/-- Corner number `i` of a lattice square, as the code lists them. -/
noncomputable def hpos (b : HBuild) (u : ℤ × ℤ) (i : Nat) : V3 :=
  match i with
  | 0 => terrain b u.1 u.2
  | 1 => terrain b u.1 (u.2 + 1)
  | 2 => terrain b (u.1 + 1) u.2
  | _ => terrain b (u.1 + 1) (u.2 + 1)

/-- What is appended for a lattice square. -/
def PatchAt (b : HBuild) (u : ℤ × ℤ) (T : List (V3 × ℝ)) : Prop :=
  IsPatch b u T ∧ ∃ light r, (r = 0 ∨ r = 2) ∧ T = quadOf (fun i => (hpos b u i, light)) 0 r

def hidx (S x y : Nat) : Nat := x + y * S

theorem hdensity_at (b : HBuild) {S x y : Nat} (hx : x < S) : hdensity b S (hidx S x y) = b.gen ((b.posX + x : ℤ) : ℝ) ((b.posZ + y : ℤ) : ℝ) := by
  unfold hdensity hidx
  have h1 : (x + y * S) % S = x := by rw [Nat.add_mul_mod_self_right, Nat.mod_eq_of_lt hx]
  have h2 : (x + y * S) / S = y := by rw [Nat.add_mul_div_right _ _ (by omega), Nat.div_eq_of_lt hx, Nat.zero_add]
  rw [h1, h2]; push_cast; rw [add_comm (x : ℝ), add_comm (y : ℝ)]

/-- Loop invariant. -/
def HAt (b : HBuild) (S : Nat) (l : List (ℤ × ℤ)) (x y : Nat) (s : HLoop) : Prop :=
  WellFormed s.1 ∧ Asm (PatchAt b) l (litCorners s.1) ∧ s.2 = hidx S x y

theorem height_step (b : HBuild) {x y : Nat} (hx : x < b.size) (hy : y < b.size) {l : List (ℤ × ℤ)} {s : HLoop} (h : HAt b (b.size + 1) l x y s) :
    ∃ s', heightBody b (b.size + 1) y x s = some s' ∧ HAt b (b.size + 1) (l ++ [(b.posX + x, b.posZ + y)]) (x + 1) y s' := by
  obtain ⟨hw, ha, hi⟩ := h
  have e1 : hidx (b.size + 1) x y + (b.size + 1) = hidx (b.size + 1) x (y + 1) := by unfold hidx; ring
  have e2 : hidx (b.size + 1) x y + 1 = hidx (b.size + 1) (x + 1) y := by unfold hidx; ring
  have e3 : hidx (b.size + 1) x y + 1 + (b.size + 1) = hidx (b.size + 1) (x + 1) (y + 1) := by unfold hidx; ring
  have hbound : hidx (b.size + 1) (x + 1) (y + 1) < (b.size + 1) * (b.size + 1) := by
    unfold hidx; nlinarith
  have hread : Readable ((b.size + 1) * (b.size + 1)) [(s.2 : ℤ), (s.2 + (b.size + 1) : Nat), (s.2 + 1 : Nat), (s.2 + 1 + (b.size + 1) : Nat)] := by
    rw [hi, e1, e3, e2]
    intro i hi'
    simp only [List.mem_cons, List.not_mem_nil, or_false] at hi'
    have m1 : hidx (b.size + 1) x y ≤ hidx (b.size + 1) (x + 1) (y + 1) := by unfold hidx; nlinarith
    have m2 : hidx (b.size + 1) x (y + 1) ≤ hidx (b.size + 1) (x + 1) (y + 1) := by unfold hidx; nlinarith
    have m3 : hidx (b.size + 1) (x + 1) y ≤ hidx (b.size + 1) (x + 1) (y + 1) := by unfold hidx; nlinarith
    rcases hi' with rfl | rfl | rfl | rfl <;> exact ⟨by omega, by exact_mod_cast (by omega)⟩
  unfold heightBody
  simp only
  rw [if_pos hread]
  rw [hi, e1, e3, e2, hdensity_at b (by omega : x < b.size + 1), hdensity_at b (by omega : x < b.size + 1), hdensity_at b (by omega : x + 1 < b.size + 1),
    hdensity_at b (by omega : x + 1 < b.size + 1)]
  have c0 : (⟨(x : ℝ) + b.posX, b.gen ((b.posX + x : ℤ) : ℝ) ((b.posZ + y : ℤ) : ℝ) * b.mult, (y : ℝ) + b.posZ⟩ : V3) = hpos b (b.posX + x, b.posZ + y) 0 := by
    ext <;> simp only [hpos, terrain] <;> push_cast <;> ring
  have c1 : (⟨(x : ℝ) + b.posX, b.gen ((b.posX + x : ℤ) : ℝ) ((b.posZ + (y + 1 : Nat) : ℤ) : ℝ) * b.mult, (y : ℝ) + b.posZ + 1⟩ : V3) = hpos b (b.posX + x, b.posZ + y) 1 := by
    ext <;> simp only [hpos, terrain] <;> push_cast <;> ring_nf
  have c2 : (⟨(x : ℝ) + b.posX + 1, b.gen ((b.posX + (x + 1 : Nat) : ℤ) : ℝ) ((b.posZ + y : ℤ) : ℝ) * b.mult, (y : ℝ) + b.posZ⟩ : V3) = hpos b (b.posX + x, b.posZ + y) 2 := by
    ext <;> simp only [hpos, terrain] <;> push_cast <;> ring_nf
  have c3 : (⟨(x : ℝ) + b.posX + 1, b.gen ((b.posX + (x + 1 : Nat) : ℤ) : ℝ) ((b.posZ + (y + 1 : Nat) : ℤ) : ℝ) * b.mult, (y : ℝ) + b.posZ + 1⟩ : V3) = hpos b (b.posX + x, b.posZ + y) 3 := by
    ext <;> simp only [hpos, terrain] <;> push_cast <;> ring_nf
  rw [c0, c1, c2, c3]
  obtain ⟨u, hu⟩ : ∃ u, u = (b.posX + (x : ℤ), b.posZ + (y : ℤ)) := ⟨_, rfl⟩
  rw [← hu]
  clear c0 c1 c2 c3
  obtain ⟨L, hL⟩ : ∃ L, L = hlight (hpos b u 0) (hpos b u 1) (hpos b u 2) (hpos b u 3) := ⟨_, rfl⟩
  rw [← hL]
  have hr : ∀ c : Prop, [Decidable c] → (if c then 2 else 0) = 0 ∨ (if c then 2 else 0 : Nat) = 2 := by intro c _; split <;> simp
  obtain ⟨w1, w2⟩ := lit_step hw (fun i => (hpos b u i, L)) (hr (sq (hpos b u 0 + hpos b u 3) < sq (hpos b u 1 + hpos b u 2)))
  refine ⟨_, rfl, w1, ?_, rfl⟩
  simp only
  rw [w2]
  refine .snoc ha ⟨?_, L, _, hr _, rfl⟩
  have hf := light_facts (u.1 : ℝ) (u.2 : ℝ) (hpos b u 0).y (hpos b u 1).y (hpos b u 2).y (hpos b u 3).y
  have hL' : hlight ⟨(u.1 : ℝ), (hpos b u 0).y, u.2⟩ ⟨u.1, (hpos b u 1).y, u.2 + 1⟩ ⟨u.1 + 1, (hpos b u 2).y, u.2⟩ ⟨u.1 + 1, (hpos b u 3).y, u.2 + 1⟩ = L := by
    rw [hL]; simp only [hpos, terrain]; push_cast; rfl
  rw [hL'] at hf
  refine ⟨L, ?_, hf.1.1, hf.1.2, hf.2⟩
  have hcmp : sq (hpos b u 0 + hpos b u 3) < sq (hpos b u 1 + hpos b u 2) ↔
      |(hpos b u 0).y + (hpos b u 3).y| < |(hpos b u 1).y + (hpos b u 2).y| := by
    rw [← sq_lt_sq, v3_add, v3_add]
    have ex : (hpos b u 0).x + (hpos b u 3).x = (hpos b u 1).x + (hpos b u 2).x := by simp only [hpos, terrain]
    have ez : (hpos b u 0).z + (hpos b u 3).z = (hpos b u 1).z + (hpos b u 2).z := by simp only [hpos, terrain]; push_cast; ring
    unfold FastNoise.Mesh.sq
    simp only
    rw [ex, ez]
    constructor <;> intro h <;> nlinarith
  by_cases hc : sq (hpos b u 0 + hpos b u 3) < sq (hpos b u 1 + hpos b u 2)
  · right
    rw [if_pos hc]
    exact ⟨rfl, hcmp.mp hc⟩
  · left
    rw [if_neg hc]
    exact ⟨rfl, not_lt.mp (fun h => hc (hcmp.mpr h))⟩

def hrow (b : HBuild) (y n : Nat) : List (ℤ × ℤ) := (List.range n).map fun x : Nat => (b.posX + (x : ℤ), b.posZ + (y : ℤ))
def htile (b : HBuild) (n : Nat) : List (ℤ × ℤ) := (List.range n).flatMap fun y => hrow b y b.size

theorem hrow_succ (b : HBuild) (y n : Nat) : hrow b y (n + 1) = hrow b y n ++ [(b.posX + (n : ℤ), b.posZ + (y : ℤ))] := by
  simp [hrow, List.range_succ]
theorem htile_succ (b : HBuild) (n : Nat) : htile b (n + 1) = htile b n ++ hrow b n b.size := by
  simp [htile, List.range_succ]

theorem mem_htile {b : HBuild} {u : ℤ × ℤ} : u ∈ htile b b.size ↔ InTile b.size (b.posX, b.posZ) u := by
  simp only [htile, hrow, List.mem_flatMap, List.mem_range, List.mem_map, InTile]
  constructor
  · rintro ⟨y, hy, x, hx, rfl⟩; simp only; omega
  · rintro ⟨⟨h1, h2⟩, ⟨h3, h4⟩⟩
    refine ⟨(u.2 - b.posZ).toNat, by omega, (u.1 - b.posX).toNat, by omega, ?_⟩
    ext <;> simp only <;> omega

theorem htile_nodup (b : HBuild) : (htile b b.size).Nodup := by
  unfold htile
  rw [List.nodup_flatMap]
  refine ⟨fun y _ => ?_, List.Pairwise.imp_of_mem ?_ (List.nodup_range (n := b.size))⟩
  · unfold hrow
    refine List.Nodup.map ?_ List.nodup_range
    intro x x' h
    simp only [Prod.mk.injEq] at h
    omega
  · intro y y' _ _ hne
    simp only [Function.onFun, List.disjoint_left, hrow, List.mem_map]
    rintro v ⟨x, _, rfl⟩ ⟨x', _, h⟩
    simp only [Prod.mk.injEq] at h
    omega

theorem buildHeight_spec (b : HBuild) : ∃ m, buildHeight b = some m ∧ WellFormed m ∧ Asm (PatchAt b) (htile b b.size) (litCorners m) := by
  unfold buildHeight
  simp only
  obtain ⟨s', e, hp⟩ := forN_inv (fun y s => HAt b (b.size + 1) (htile b y) 0 y s)
    (fun y s => (forN (heightBody b (b.size + 1) y) b.size s).map fun s => (s.1, s.2 + 1)) b.size (([], []), 0)
    (by
      refine ⟨by constructor <;> simp, ?_, by simp [hidx]⟩
      simpa [htile, litCorners] using Asm.nil)
    (fun y hy s hs => by
      obtain ⟨s', e, hp⟩ := forN_inv (fun x s => HAt b (b.size + 1) (htile b y ++ hrow b y x) x y s)
        (heightBody b (b.size + 1) y) b.size s (by simpa [hrow] using hs)
        (fun x hx s hs => by
          obtain ⟨s', e, h'⟩ := height_step b hx hy hs
          exact ⟨s', e, by rw [hrow_succ, ← List.append_assoc]; exact h'⟩)
      refine ⟨(s'.1, s'.2 + 1), by rw [e]; rfl, hp.1, by rw [htile_succ]; exact hp.2.1, ?_⟩
      simp only [hp.2.2]; unfold hidx; ring)
  rw [e]
  exact ⟨_, rfl, hp.1, hp.2.1⟩

end FastNoise.Mesh
