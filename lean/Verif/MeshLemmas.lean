import Verif.MeshSpec
import Verif.MeshTable
import Mathlib.Data.List.GetD
import Mathlib.Tactic.Ring
import Mathlib.Tactic.Linarith
import Mathlib.Tactic.NormNum
import Mathlib.Tactic.Push

/-! Proofs about the dual marching cubes mesh of one chunk. -/

namespace FastNoise.Mesh

/-! ### Array indices -/

/-- Index of the array element with coordinates `x y z`. -/
def idx (S x y z : Nat) : Nat := x + y * S + z * (S * S)

theorem idx_lt {S x y z : Nat} (hx : x < S) (hy : y < S) (hz : z < S) : idx S x y z < S * S * S := by
  unfold idx
  have h1 : x + y * S < S * S := by nlinarith
  nlinarith

theorem idx_mod {S x y z : Nat} (hx : x < S) (hy : y < S) :
    idx S x y z % S = x ∧ idx S x y z / S % S = y ∧ idx S x y z / (S * S) = z := by
  have hS : 0 < S := by omega
  have e : idx S x y z = x + S * (y + S * z) := by unfold idx; ring
  have h1 : idx S x y z % S = x := by rw [e, Nat.add_mul_mod_self_left, Nat.mod_eq_of_lt hx]
  have h2 : idx S x y z / S = y + S * z := by rw [e, Nat.add_mul_div_left _ _ hS, Nat.div_eq_of_lt hx, zero_add]
  refine ⟨h1, ?_, ?_⟩
  · rw [h2, Nat.add_mul_mod_self_left, Nat.mod_eq_of_lt hy]
  · rw [← Nat.div_div_eq_div_mul, h2, Nat.add_mul_div_left _ _ hS, Nat.div_eq_of_lt hy, zero_add]

/-- The lattice point of an array index. -/
def latt (b : Build) (S i : Nat) (start : ℤ) : I3 :=
  ⟨b.pos.x + ((i % S : Nat) : ℤ) + start, b.pos.y + ((i / S % S : Nat) : ℤ) + start, b.pos.z + ((i / (S * S) : Nat) : ℤ) + start⟩

theorem density_eq (b : Build) (S : Nat) (start : ℤ) (i : Nat) : density b S start i = field b (latt b S i start) := by
  unfold density field latt
  have e : ∀ a p : ℤ, ((a + start : ℤ) : ℝ) + (p : ℝ) = ((p + a + start : ℤ) : ℝ) := by intro a p; push_cast; ring
  simp only [e]

theorem latt_idx (b : Build) {S x y z : Nat} (start : ℤ) (hx : x < S) (hy : y < S) :
    latt b S (idx S x y z) start = ⟨b.pos.x + x + start, b.pos.y + y + start, b.pos.z + z + start⟩ := by
  obtain ⟨h1, h2, h3⟩ := idx_mod (z := z) hx hy
  unfold latt; rw [h1, h2, h3]

/-! ### The cell in lattice coordinates -/

/-- The densities of the eight corners of a lattice cell. -/
def cube (f : I3 → ℝ) (v : I3) : Nat → ℝ
  | 0 => f v
  | 1 => f ⟨v.x + 1, v.y, v.z⟩
  | 2 => f ⟨v.x, v.y + 1, v.z⟩
  | 3 => f ⟨v.x + 1, v.y + 1, v.z⟩
  | 4 => f ⟨v.x, v.y, v.z + 1⟩
  | 5 => f ⟨v.x + 1, v.y, v.z + 1⟩
  | 6 => f ⟨v.x, v.y + 1, v.z + 1⟩
  | _ => f ⟨v.x + 1, v.y + 1, v.z + 1⟩

/-- The array agrees with the lattice on the corners of a cell. -/
structure OnCell (d : Nat → ℝ) (S c : Nat) (f : I3 → ℝ) (v : I3) : Prop where
  h0 : d c = cube f v 0
  h1 : d (c + 1) = cube f v 1
  h2 : d (c + S) = cube f v 2
  h3 : d (c + 1 + S) = cube f v 3
  h4 : d (c + S * S) = cube f v 4
  h5 : d (c + 1 + S * S) = cube f v 5
  h6 : d (c + S + S * S) = cube f v 6
  h7 : d (c + 1 + S + S * S) = cube f v 7

theorem cellCode_eq {d : Nat → ℝ} {S c : Nat} {f : I3 → ℝ} {v : I3} (h : OnCell d S c f v) (iso : ℝ) :
    cellCode d iso S c = cellCode (cube f v) iso 2 0 := by
  unfold cellCode
  rw [h.h0, h.h1, h.h2, h.h3, h.h4, h.h5, h.h6, h.h7]

theorem edgePoint_eq {d : Nat → ℝ} {S c : Nat} {f : I3 → ℝ} {v : I3} (h : OnCell d S c f v) (iso : ℝ) (k : Nat) :
    edgePoint d iso S c k = edgePoint (cube f v) iso 2 0 k := by
  unfold edgePoint
  split <;> simp only [h.h0, h.h1, h.h2, h.h3, h.h4, h.h5, h.h6, h.h7, Nat.zero_add, Nat.reduceAdd, Nat.reduceMul]

theorem vert_eq {d : Nat → ℝ} {S c : Nat} {f : I3 → ℝ} {v : I3} (h : OnCell d S c f v) (iso : ℝ) (pc : Nat) :
    vert d iso S c pc = vert (cube f v) iso 2 0 pc := by
  unfold vert
  have : edgePoint d iso S c = edgePoint (cube f v) iso 2 0 := funext (edgePoint_eq h iso)
  rw [this]

/-- The real vector of a lattice point. -/
noncomputable def I3.toV (v : I3) : V3 := ⟨v.x, v.y, v.z⟩

/-- The dual point of edge `k` in a lattice cell. -/
noncomputable def gpoint (f : I3 → ℝ) (iso : ℝ) (v : I3) (k : Nat) : Nat := pointCode (cellCode (cube f v) iso 2 0) (2 ^ k)

/-- The position of a dual point. -/
noncomputable def gpos (f : I3 → ℝ) (iso : ℝ) (v : I3) (pc : Nat) : V3 := vert (cube f v) iso 2 0 pc + v.toV

/-- The coordinates of a cell that lies inside the array, away from its rim. -/
structure Inner (S x y z : Nat) : Prop where
  x1 : 1 ≤ x
  y1 : 1 ≤ y
  z1 : 1 ≤ z
  x2 : x + 2 < S
  y2 : y + 2 < S
  z2 : z + 2 < S

theorem onCell (b : Build) {S x y z : Nat} (h : Inner S x y z) :
    OnCell (density b S (-2)) S (idx S x y z) (field b) ⟨b.pos.x + x - 2, b.pos.y + y - 2, b.pos.z + z - 2⟩ := by
  obtain ⟨x1, y1, z1, x2, y2, z2⟩ := h
  have e : ∀ i j k, i ≤ 1 → j ≤ 1 → k ≤ 1 → density b S (-2) (idx S (x + i) (y + j) (z + k)) =
      field b ⟨b.pos.x + x - 2 + i, b.pos.y + y - 2 + j, b.pos.z + z - 2 + k⟩ := by
    intro i j k hi hj hk
    rw [density_eq, latt_idx b (-2) (by omega) (by omega)]
    congr 2 <;> push_cast <;> ring
  have i0 : idx S x y z = idx S (x + 0) (y + 0) (z + 0) := rfl
  have i1 : idx S x y z + 1 = idx S (x + 1) (y + 0) (z + 0) := by unfold idx; ring
  have i2 : idx S x y z + S = idx S (x + 0) (y + 1) (z + 0) := by unfold idx; ring
  have i3 : idx S x y z + 1 + S = idx S (x + 1) (y + 1) (z + 0) := by unfold idx; ring
  have i4 : idx S x y z + S * S = idx S (x + 0) (y + 0) (z + 1) := by unfold idx; ring
  have i5 : idx S x y z + 1 + S * S = idx S (x + 1) (y + 0) (z + 1) := by unfold idx; ring
  have i6 : idx S x y z + S + S * S = idx S (x + 0) (y + 1) (z + 1) := by unfold idx; ring
  have i7 : idx S x y z + 1 + S + S * S = idx S (x + 1) (y + 1) (z + 1) := by unfold idx; ring
  constructor
  · rw [i0, e _ _ _ (by omega) (by omega) (by omega)]; simp [cube]
  · rw [i1, e _ _ _ (by omega) (by omega) (by omega)]; simp [cube]
  · rw [i2, e _ _ _ (by omega) (by omega) (by omega)]; simp [cube]
  · rw [i3, e _ _ _ (by omega) (by omega) (by omega)]; simp [cube]
  · rw [i4, e _ _ _ (by omega) (by omega) (by omega)]; simp [cube]
  · rw [i5, e _ _ _ (by omega) (by omega) (by omega)]; simp [cube]
  · rw [i6, e _ _ _ (by omega) (by omega) (by omega)]; simp [cube]
  · rw [i7, e _ _ _ (by omega) (by omega) (by omega)]; simp [cube]

/-! ### Reads -/

theorem readable_idx {S : Nat} {i : ℤ} {x y z : Nat} (h : i = (idx S x y z : Nat)) (hx : x < S) (hy : y < S) (hz : z < S) : 0 ≤ i ∧ i < (S * S * S : Nat) := by
  rw [h]; exact ⟨Int.natCast_nonneg _, by exact_mod_cast idx_lt hx hy hz⟩

theorem corners_readable {S x y z : Nat} (h : Inner S x y z) : Readable (S * S * S) ((corners S (idx S x y z)).map (Nat.cast : Nat → ℤ)) := by
  obtain ⟨x1, y1, z1, x2, y2, z2⟩ := h
  intro i hi
  obtain ⟨j, hj, rfl⟩ := List.mem_map.mp hi
  simp only [corners, List.mem_cons, List.not_mem_nil, or_false] at hj
  rcases hj with h | h | h | h | h | h | h | h
  · exact readable_idx (by rw [h]) (by omega) (by omega) (by omega)
  · exact readable_idx (x := x + 1) (y := y) (z := z) (by rw [h]; unfold idx; push_cast; ring) (by omega) (by omega) (by omega)
  · exact readable_idx (x := x) (y := y + 1) (z := z) (by rw [h]; unfold idx; push_cast; ring) (by omega) (by omega) (by omega)
  · exact readable_idx (x := x + 1) (y := y + 1) (z := z) (by rw [h]; unfold idx; push_cast; ring) (by omega) (by omega) (by omega)
  · exact readable_idx (x := x) (y := y) (z := z + 1) (by rw [h]; unfold idx; push_cast; ring) (by omega) (by omega) (by omega)
  · exact readable_idx (x := x + 1) (y := y) (z := z + 1) (by rw [h]; unfold idx; push_cast; ring) (by omega) (by omega) (by omega)
  · exact readable_idx (x := x) (y := y + 1) (z := z + 1) (by rw [h]; unfold idx; push_cast; ring) (by omega) (by omega) (by omega)
  · exact readable_idx (x := x + 1) (y := y + 1) (z := z + 1) (by rw [h]; unfold idx; push_cast; ring) (by omega) (by omega) (by omega)

theorem mem_quarter {s1 s2 : Nat} {v1 v2 : ℝ} {p : Nat × ℝ} (h : p ∈ quarter s1 s2 v1 v2) : ∃ i j, i ≤ 1 ∧ j ≤ 1 ∧ p.1 = i * s1 + j * s2 := by
  simp only [quarter, List.mem_cons, List.not_mem_nil, or_false] at h
  rcases h with rfl | rfl | rfl | rfl
  · exact ⟨0, 0, by omega, by omega, by simp⟩
  · exact ⟨1, 0, by omega, by omega, by simp⟩
  · exact ⟨0, 1, by omega, by omega, by simp⟩
  · exact ⟨1, 1, by omega, by omega, by simp⟩

theorem derivOffset_cases (s : Nat) (v : ℝ) : ∃ o, o ≤ 1 ∧ derivOffset s v = o * s := by
  unfold derivOffset
  split
  · exact ⟨0, by omega, by simp⟩
  · exact ⟨1, by omega, by simp⟩

theorem light_readable {S x y z : Nat} (h : Inner S x y z) (v : V3) : Readable (S * S * S) (lightReads S (idx S x y z) v) := by
  obtain ⟨x1, y1, z1, x2, y2, z2⟩ := h
  obtain ⟨x, rfl⟩ : ∃ k, x = k + 1 := ⟨x - 1, by omega⟩
  obtain ⟨y, rfl⟩ : ∃ k, y = k + 1 := ⟨y - 1, by omega⟩
  obtain ⟨z, rfl⟩ : ∃ k, z = k + 1 := ⟨z - 1, by omega⟩
  intro i hi
  simp only [lightReads, derivReads, List.mem_append, List.mem_flatMap, List.mem_cons, List.not_mem_nil, or_false] at hi
  rcases hi with (⟨p, hp, hi⟩ | ⟨p, hp, hi⟩) | ⟨p, hp, hi⟩
  · obtain ⟨j, k, hj, hk, e⟩ := mem_quarter hp
    obtain ⟨o, ho, eo⟩ := derivOffset_cases 1 v.x
    rw [e, eo] at hi
    rcases hi with h | h | h
    · exact readable_idx (x := x + o) (y := y + 1 + j) (z := z + 1 + k) (by rw [h]; unfold idx; push_cast; ring) (by omega) (by omega) (by omega)
    · exact readable_idx (x := x + o + 1) (y := y + 1 + j) (z := z + 1 + k) (by rw [h]; unfold idx; push_cast; ring) (by omega) (by omega) (by omega)
    · exact readable_idx (x := x + o + 2) (y := y + 1 + j) (z := z + 1 + k) (by rw [h]; unfold idx; push_cast; ring) (by omega) (by omega) (by omega)
  · obtain ⟨j, k, hj, hk, e⟩ := mem_quarter hp
    obtain ⟨o, ho, eo⟩ := derivOffset_cases S v.y
    rw [e, eo] at hi
    rcases hi with h | h | h
    · exact readable_idx (x := x + 1 + j) (y := y + o) (z := z + 1 + k) (by rw [h]; unfold idx; push_cast; ring) (by omega) (by omega) (by omega)
    · exact readable_idx (x := x + 1 + j) (y := y + o + 1) (z := z + 1 + k) (by rw [h]; unfold idx; push_cast; ring) (by omega) (by omega) (by omega)
    · exact readable_idx (x := x + 1 + j) (y := y + o + 2) (z := z + 1 + k) (by rw [h]; unfold idx; push_cast; ring) (by omega) (by omega) (by omega)
  · obtain ⟨j, k, hj, hk, e⟩ := mem_quarter hp
    obtain ⟨o, ho, eo⟩ := derivOffset_cases (S * S) v.z
    rw [e, eo] at hi
    rcases hi with h | h | h
    · exact readable_idx (x := x + 1 + j) (y := y + 1 + k) (z := z + o) (by rw [h]; unfold idx; push_cast; ring) (by omega) (by omega) (by omega)
    · exact readable_idx (x := x + 1 + j) (y := y + 1 + k) (z := z + o + 1) (by rw [h]; unfold idx; push_cast; ring) (by omega) (by omega) (by omega)
    · exact readable_idx (x := x + 1 + j) (y := y + 1 + k) (z := z + o + 2) (by rw [h]; unfold idx; push_cast; ring) (by omega) (by omega) (by omega)

/-! ### `DmcGetVertIndex` -/

theorem row_lt : ∀ (c : Nat) (p : Nat), p ∈ dualPointsList.getD c [] → p < 4096 := by
  have key : ∀ (l : List (List Nat)) (k : Nat), rowsOk k l = true → ∀ r ∈ l, ∀ p ∈ r, p < 4096 := by
    intro l
    induction l with
    | nil => intro k _ r hr; cases hr
    | cons a l ih =>
      intro k h r hr p hp
      simp only [rowsOk, rowOk, Bool.and_eq_true, List.all_eq_true, decide_eq_true_eq] at h
      rcases List.mem_cons.mp hr with rfl | hr
      · exact h.1.1.2 p hp
      · exact ih (k + 1) h.2 r hr p hp
  intro c p hp
  by_cases hc : c < dualPointsList.length
  · rw [List.getD_eq_getElem _ _ hc] at hp
    exact key _ 0 table_rows.1 _ (List.getElem_mem hc) p hp
  · rw [List.getD_eq_default _ _ (by omega)] at hp; cases hp

theorem pointCode_lt (c e : Nat) : pointCode c e < 4096 := by
  unfold pointCode
  cases h : (dualPointsList.getD c []).find? fun p => p &&& e != 0 with
  | none => simp
  | some p => exact row_lt c p (List.mem_of_find?_eq_some h)

theorem key_decode {c p : Nat} (h : p < 4096) : (c <<< 12 ||| p) / 4096 = c ∧ (c <<< 12 ||| p) % 4096 = p := by
  have e : c <<< 12 ||| p = c * 4096 + p := by
    rw [← Nat.shiftLeft_add_eq_or_of_lt (show p < 2 ^ 12 from h), Nat.shiftLeft_eq]
  rw [e]; constructor <;> omega

/-- The position a map key stands for. -/
noncomputable def keyPos (b : Build) (S key : Nat) : V3 := gpos (field b) b.iso (latt b S (key / 4096) (-2)) (key % 4096)

/-- A vertex with its brightness, as computed in some cell. -/
def VertexOf (b : Build) (S : Nat) (e : V3 × ℝ) : Prop :=
  ∃ x y z k, Inner S x y z ∧ gpoint (field b) b.iso ⟨b.pos.x + x - 2, b.pos.y + y - 2, b.pos.z + z - 2⟩ k ≠ 0 ∧
    e.1 = gpos (field b) b.iso ⟨b.pos.x + x - 2, b.pos.y + y - 2, b.pos.z + z - 2⟩ (gpoint (field b) b.iso ⟨b.pos.x + x - 2, b.pos.y + y - 2, b.pos.z + z - 2⟩ k) ∧
    e.2 = light (density b S (-2)) S (idx S x y z) (vert (cube (field b) ⟨b.pos.x + x - 2, b.pos.y + y - 2, b.pos.z + z - 2⟩) b.iso 2 0
      (gpoint (field b) b.iso ⟨b.pos.x + x - 2, b.pos.y + y - 2, b.pos.z + z - 2⟩ k))

/-- Every entry of the map leads to the vertex at its position. -/
def VInv (b : Build) (S : Nat) (st : Verts) : Prop :=
  (∀ key i, st.map.lookup key = some i → ∃ l, st.data[i]? = some (keyPos b S key, l)) ∧ ∀ e ∈ st.data, VertexOf b S e

/-- Vertices are only appended. -/
def Grows (a b : Verts) : Prop := ∃ l, b.data = a.data ++ l

theorem Grows.refl (a : Verts) : Grows a a := ⟨[], by simp⟩
theorem Grows.trans {a b c : Verts} (h : Grows a b) (h' : Grows b c) : Grows a c := by
  obtain ⟨l, e⟩ := h; obtain ⟨l', e'⟩ := h'
  exact ⟨l ++ l', by rw [e', e, List.append_assoc]⟩
theorem Grows.get {a b : Verts} (h : Grows a b) {i : Nat} {v : V3 × ℝ} (hv : a.data[i]? = some v) : b.data[i]? = some v := by
  obtain ⟨l, e⟩ := h
  rw [e, List.getElem?_append_left (List.getElem?_eq_some_iff.mp hv).1]; exact hv

theorem dot_bounds (a b c x y z : ℝ) (h : a ^ 2 + b ^ 2 + c ^ 2 = 1) (h' : x ^ 2 + y ^ 2 + z ^ 2 = 1) :
    -1 ≤ a * x + b * y + c * z ∧ a * x + b * y + c * z ≤ 1 := by
  constructor <;> nlinarith [sq_nonneg (a + x), sq_nonneg (b + y), sq_nonneg (c + z), sq_nonneg (a - x), sq_nonneg (b - y), sq_nonneg (c - z)]

theorem unit_of {x y z l : ℝ} (hl : l = √(x ^ 2 + y ^ 2 + z ^ 2)) (h0 : l ≠ 0) : (x / l) ^ 2 + (y / l) ^ 2 + (z / l) ^ 2 = 1 := by
  have h2 : l ^ 2 = x ^ 2 + y ^ 2 + z ^ 2 := by rw [hl]; exact Real.sq_sqrt (by positivity)
  have : l ^ 2 ≠ 0 := pow_ne_zero 2 h0
  rw [div_pow, div_pow, div_pow, ← add_div, ← add_div, ← h2, div_self this]

theorem light_bounds (d : Nat → ℝ) (S c : Nat) (v : V3) : 0.09 ≤ light d S c v ∧ light d S c v ≤ 1 := by
  unfold light
  simp only
  generalize derivative d c 1 v.x (quarter S (S * S) v.y v.z) = gx
  generalize derivative d c S v.y (quarter 1 (S * S) v.x v.z) = gy
  generalize derivative d c (S * S) v.z (quarter 1 S v.x v.y) = gz
  by_cases h : √(gx ^ 2 + gy ^ 2 + gz ^ 2) = 0
  · rw [if_pos h]; norm_num
  · rw [if_neg h]
    have hd : √((0.6 : ℝ) ^ 2 + 1 ^ 2 + 0.4 ^ 2) ≠ 0 := by
      rw [Real.sqrt_ne_zero (by norm_num)]; norm_num
    have u1 := unit_of (x := -0.6) (y := -1) (z := -0.4) (l := √((0.6 : ℝ) ^ 2 + 1 ^ 2 + 0.4 ^ 2)) (by norm_num) hd
    have u2 := unit_of rfl h
    have hb := dot_bounds _ _ _ _ _ _ u1 u2
    generalize (-0.6 : ℝ) / √((0.6 : ℝ) ^ 2 + 1 ^ 2 + 0.4 ^ 2) * (gx / √(gx ^ 2 + gy ^ 2 + gz ^ 2)) +
      -1 / √((0.6 : ℝ) ^ 2 + 1 ^ 2 + 0.4 ^ 2) * (gy / √(gx ^ 2 + gy ^ 2 + gz ^ 2)) +
      -0.4 / √((0.6 : ℝ) ^ 2 + 1 ^ 2 + 0.4 ^ 2) * (gz / √(gx ^ 2 + gy ^ 2 + gz ^ 2)) = t at hb ⊢
    refine ⟨le_min (by norm_num) ?_, min_le_left _ _⟩
    have : (0.3 : ℝ) ≤ t * (0.5 - 0.3 * 0.5) + (0.5 + 0.3 * 0.5) := by norm_num; linarith [hb.1]
    nlinarith

theorem getVert_spec (b : Build) {S x y z : Nat} (h : Inner S x y z) {st : Verts} (hs : VInv b S st) (k : Nat) (off : V3)
    (hoff : off = (⟨b.pos.x + x - 2, b.pos.y + y - 2, b.pos.z + z - 2⟩ : I3).toV)
    (hne : gpoint (field b) b.iso ⟨b.pos.x + x - 2, b.pos.y + y - 2, b.pos.z + z - 2⟩ k ≠ 0) :
    ∃ i st', getVert (density b S (-2)) b.iso S st (idx S x y z) (2 ^ k) off = some (i, st') ∧ VInv b S st' ∧ Grows st st' ∧
      ∃ l, st'.data[i]? = some (gpos (field b) b.iso ⟨b.pos.x + x - 2, b.pos.y + y - 2, b.pos.z + z - 2⟩
        (gpoint (field b) b.iso ⟨b.pos.x + x - 2, b.pos.y + y - 2, b.pos.z + z - 2⟩ k), l) := by
  obtain ⟨v, hv⟩ : ∃ v : I3, v = ⟨b.pos.x + x - 2, b.pos.y + y - 2, b.pos.z + z - 2⟩ := ⟨_, rfl⟩
  rw [← hv] at hoff hne ⊢
  have hc := onCell b h
  rw [← hv] at hc
  have hl : latt b S (idx S x y z) (-2) = v := by
    rw [latt_idx b (-2) (by have := h.x2; omega) (by have := h.y2; omega), hv]; rfl
  have hpc := pointCode_lt (cellCode (density b S (-2)) b.iso S (idx S x y z)) (2 ^ k)
  have hg : pointCode (cellCode (density b S (-2)) b.iso S (idx S x y z)) (2 ^ k) = gpoint (field b) b.iso v k := by
    rw [cellCode_eq hc]; rfl
  obtain ⟨kd, km⟩ := key_decode (c := idx S x y z) hpc
  unfold getVert
  rw [if_pos (corners_readable h)]
  simp only
  rw [hg] at hpc kd km ⊢
  have hkey : keyPos b S (idx S x y z <<< 12 ||| gpoint (field b) b.iso v k) = gpos (field b) b.iso v (gpoint (field b) b.iso v k) := by
    unfold keyPos; rw [kd, km, hl]
  cases hm : st.map.lookup (idx S x y z <<< 12 ||| gpoint (field b) b.iso v k) with
  | some i =>
    obtain ⟨l, hd⟩ := hs.1 _ _ hm
    exact ⟨i, st, rfl, hs, Grows.refl st, l, by rw [hd, hkey]⟩
  | none =>
    simp only
    rw [if_pos (light_readable h _)]
    have hpos : vert (density b S (-2)) b.iso S (idx S x y z) (gpoint (field b) b.iso v k) + off = gpos (field b) b.iso v (gpoint (field b) b.iso v k) := by
      rw [vert_eq hc, hoff]; rfl
    refine ⟨_, _, rfl, ?_, ⟨_, rfl⟩, light (density b S (-2)) S (idx S x y z) (vert (density b S (-2)) b.iso S (idx S x y z) (gpoint (field b) b.iso v k)), ?_⟩
    · refine ⟨fun key i hk => ?_, fun e he => ?_⟩
      rotate_left
      · rcases List.mem_append.mp he with he | he
        · exact hs.2 e he
        · rw [List.mem_singleton] at he; rw [he]
          refine ⟨x, y, z, k, h, ?_, ?_, ?_⟩
          · rw [← hv]; exact hne
          · rw [← hv]; exact hpos
          · rw [← hv, vert_eq hc]
      simp only [List.lookup_cons] at hk
      by_cases hkk : key = idx S x y z <<< 12 ||| gpoint (field b) b.iso v k
      · rw [hkk] at hk ⊢
        simp only [beq_self_eq_true, Option.some.injEq] at hk
        subst hk
        rw [hkey, hpos]
        exact ⟨light (density b S (-2)) S (idx S x y z) (vert (density b S (-2)) b.iso S (idx S x y z) (gpoint (field b) b.iso v k)), by simp⟩
      · rw [show (key == idx S x y z <<< 12 ||| gpoint (field b) b.iso v k) = false by simpa using hkk] at hk
        obtain ⟨l, hd⟩ := hs.1 _ _ hk
        exact ⟨l, Grows.get (b := ⟨_, []⟩) ⟨_, rfl⟩ hd⟩
    · rw [hpos]; simp

end FastNoise.Mesh
