import Verif.CGenLemmas
import Verif.CApiRefProps

/-!
# C57: generation through the C API

`Filled`, `Room`, `Apart` are in `CGenSpec.lean`.  Every theorem is for all register widths `N`, all float operations,
all nodes, seeds, memories and addresses.
-/

namespace FastNoise.CGen

open Grid

variable {F : Type} [LinearOrder F] [BoundedOrder F]

/-- **C57** `fnGenUniformGrid2D` writes at `noiseOut[y * xCount + x]` what `fnGenSingle2D` gives at
`(xOffset + x * xStepSize, yOffset + y * yStepSize)`, the exact minimum and maximum at `outputMinMax` unless it is
`NULL`, and nothing else. -/
theorem C57_grid2D (N : Nat) (hN : 0 < N) (o : FOps F) (node : Node F) (mem : List F) (out : Nat) (mm : Ptr)
    (xOff yOff : F) (X Y : Nat) (hX : 0 < X) (hY : 0 < Y) (hint : X * Y < 2 ^ 31) (xStep yStep : F) (seed : Int)
    (hr : Room mem out (X * Y) mm) :
    ∃ after f, fnGenUniformGrid2D N hN o (some node) mem (some out) xOff yOff X Y xStep yStep seed mm = .ok after ∧
      Filled mem after out (X * Y) f mm ∧
      ∀ x y, x < X → y < Y →
        fnGenSingle2D (some node) (o.fma (o.conv x) xStep xOff) (o.fma (o.conv y) yStep yOff) seed =
          .ok (f (y * X + x)) := by
  obtain ⟨f, hb, hf⟩ := C15_C16_grid2D N hN o (node.gen2 seed) (mem.drop out) xOff yOff X Y hX hY hint
    (by have := hr.1; simp; omega) xStep yStep
  obtain ⟨after, h1, h2⟩ := filled_of (call := fun buf =>
    genUniformGrid2D N hN o (node.gen2 seed) buf xOff yOff X Y xStep yStep) hr hb
  exact ⟨after, f, by unfold fnGenUniformGrid2D toGen; rw [ok_bind]; exact h1, h2, fun x y hx hy => by rw [hf x y hx hy]; rfl⟩

/-- **C57** The same for `fnGenUniformGrid3D`, at `noiseOut[(z * yCount + y) * xCount + x]`. -/
theorem C57_grid3D (N : Nat) (hN : 0 < N) (o : FOps F) (node : Node F) (mem : List F) (out : Nat) (mm : Ptr)
    (xOff yOff zOff : F) (X Y Z : Nat) (hX : 0 < X) (hY : 0 < Y) (hZ : 0 < Z) (hint : X * Y * Z < 2 ^ 31)
    (xStep yStep zStep : F) (seed : Int) (hr : Room mem out (X * Y * Z) mm) :
    ∃ after f, fnGenUniformGrid3D N hN o (some node) mem (some out) xOff yOff zOff X Y Z xStep yStep zStep seed mm =
        .ok after ∧
      Filled mem after out (X * Y * Z) f mm ∧
      ∀ x y z, x < X → y < Y → z < Z →
        fnGenSingle3D (some node) (o.fma (o.conv x) xStep xOff) (o.fma (o.conv y) yStep yOff)
          (o.fma (o.conv z) zStep zOff) seed = .ok (f ((z * Y + y) * X + x)) := by
  obtain ⟨f, hb, hf⟩ := C15_C16_grid3D N hN o (node.gen3 seed) (mem.drop out) xOff yOff zOff X Y Z hX hY hZ hint
    (by have := hr.1; rw [List.length_drop]; omega) xStep yStep zStep
  obtain ⟨after, h1, h2⟩ := filled_of (call := fun buf =>
    genUniformGrid3D N hN o (node.gen3 seed) buf xOff yOff zOff X Y Z xStep yStep zStep) hr hb
  exact ⟨after, f, by unfold fnGenUniformGrid3D toGen; rw [ok_bind]; exact h1, h2, fun x y z hx hy hz => by rw [hf x y z hx hy hz]; rfl⟩

/-- **C57** The same for `fnGenUniformGrid4D`, at `noiseOut[((w * zCount + z) * yCount + y) * xCount + x]`. -/
theorem C57_grid4D (N : Nat) (hN : 0 < N) (o : FOps F) (node : Node F) (mem : List F) (out : Nat) (mm : Ptr)
    (xOff yOff zOff wOff : F) (X Y Z W : Nat) (hX : 0 < X) (hY : 0 < Y) (hZ : 0 < Z) (hW : 0 < W)
    (hint : X * Y * Z * W < 2 ^ 31) (xStep yStep zStep wStep : F) (seed : Int) (hr : Room mem out (X * Y * Z * W) mm) :
    ∃ after f, fnGenUniformGrid4D N hN o (some node) mem (some out) xOff yOff zOff wOff X Y Z W
        xStep yStep zStep wStep seed mm = .ok after ∧
      Filled mem after out (X * Y * Z * W) f mm ∧
      ∀ x y z w, x < X → y < Y → z < Z → w < W →
        fnGenSingle4D (some node) (o.fma (o.conv x) xStep xOff) (o.fma (o.conv y) yStep yOff)
          (o.fma (o.conv z) zStep zOff) (o.fma (o.conv w) wStep wOff) seed =
          .ok (f (((w * Z + z) * Y + y) * X + x)) := by
  obtain ⟨f, hb, hf⟩ := C15_C16_grid4D N hN o (node.gen4 seed) (mem.drop out) xOff yOff zOff wOff X Y Z W hX hY hZ hW hint
    (by have := hr.1; rw [List.length_drop]; omega) xStep yStep zStep wStep
  obtain ⟨after, h1, h2⟩ := filled_of (call := fun buf =>
    genUniformGrid4D N hN o (node.gen4 seed) buf xOff yOff zOff wOff X Y Z W xStep yStep zStep wStep) hr hb
  exact ⟨after, f, by unfold fnGenUniformGrid4D toGen; rw [ok_bind]; exact h1, h2, fun x y z w hx hy hz hw => by rw [hf x y z w hx hy hz hw]; rfl⟩

/-- **C57** `fnGenTileable2D` writes at `noiseOut[y * xSize + x]` what `fnGenSingle4D` gives at the point of the
torus for `(x, y)`: x angle `x / (xSize / 2π)` and radius `xSize / 2π * xStepSize` in the first and third coordinate,
the same for y in the second and fourth. -/
theorem C57_tileable2D (N : Nat) (hN : 0 < N) (o : FOps F) (recip : F → F) (pi2Recip : F) (node : Node F) (mem : List F)
    (out : Nat) (mm : Ptr) (X Y : Nat) (hX : 0 < X) (hY : 0 < Y) (hint : X * Y < 2 ^ 31) (xStep yStep : F) (seed : Int)
    (hr : Room mem out (X * Y) mm) :
    ∃ after f, fnGenTileable2D N hN o recip pi2Recip (some node) mem (some out) X Y xStep yStep seed mm = .ok after ∧
      Filled mem after out (X * Y) f mm ∧
      ∀ x y, x < X → y < Y →
        let rx := o.mul (o.conv X) pi2Recip
        let ry := o.mul (o.conv Y) pi2Recip
        let ax := o.mul (o.conv x) (recip rx)
        let ay := o.mul (o.conv y) (recip ry)
        fnGenSingle4D (some node) (o.mul (o.cos ax) (o.mul rx xStep)) (o.mul (o.cos ay) (o.mul ry yStep))
          (o.mul (o.sin ax) (o.mul rx xStep)) (o.mul (o.sin ay) (o.mul ry yStep)) seed = .ok (f (y * X + x)) := by
  obtain ⟨f, hb, hf⟩ := C18_positions N hN o (node.gen4 seed) (mem.drop out) X Y hX hY hint
    (by have := hr.1; simp; omega) (tileConst o recip pi2Recip X xStep) (tileConst o recip pi2Recip Y yStep)
  obtain ⟨after, h1, h2⟩ := filled_of (call := fun buf =>
    genTileable2D N hN o (node.gen4 seed) buf X Y (tileConst o recip pi2Recip X xStep)
      (tileConst o recip pi2Recip Y yStep)) hr hb
  refine ⟨after, f, by unfold fnGenTileable2D toGen; rw [ok_bind]; exact h1, h2, fun x y hx hy => ?_⟩
  rw [hf x y hx hy]; rfl

/-- **C57** `fnGenPositionArray2D` writes at `noiseOut[i]` what `fnGenSingle2D` gives at
`(xPosArray[i] + xOffset, yPosArray[i] + yOffset)`.  Each position array is apart from the output array — or is the output
array itself, if `count` is at most the register width or a multiple of it. -/
theorem C57_positions2D (N : Nat) (hN : 0 < N) (o : FOps F) (junk : Lanes F) (node : Node F) (mem : List F) (out : Nat)
    (mm : Ptr) (n : Nat) (hn : 0 < n) (xs ys : Nat) (xOff yOff : F) (seed : Int) (hr : Room mem out n mm)
    (hx : Apart mem out n xs ∨ (xs = out ∧ (n ≤ N ∨ N ∣ n))) (hy : Apart mem out n ys ∨ (ys = out ∧ (n ≤ N ∨ N ∣ n))) :
    ∃ after f, fnGenPositionArray2D N hN o junk (some node) mem (some out) n (some xs) (some ys) xOff yOff seed mm =
        .ok after ∧
      Filled mem after out n f mm ∧
      ∀ i < n, ∃ x y, mem[xs + i]? = some x ∧ mem[ys + i]? = some y ∧
        fnGenSingle2D (some node) (o.add xOff x) (o.add yOff y) seed = .ok (f i) := by
  have hb := positions_core N hN o junk (at2 node seed) mem out n hn hr.1 [(xOff, xs), (yOff, ys)] (by
    intro a ha
    simp only [List.mem_cons, List.not_mem_nil, or_false] at ha
    rcases ha with rfl | rfl
    · exact hx
    · exact hy)
  obtain ⟨after, h1, h2⟩ := filled_of (call := fun buf =>
    genPositionArrayM N hN o junk (at2 node seed) (mem.take out) buf n [(xOff, xs), (yOff, ys)]) hr hb
  refine ⟨after, _, h1, h2, fun i hi => ?_⟩
  have len : ∀ {a : Nat}, (Apart mem out n a ∨ (a = out ∧ (n ≤ N ∨ N ∣ n))) → ∃ v, mem[a + i]? = some v := by
    intro a h
    have := hr.1
    have hl : a + i < mem.length := by rcases h with h | h <;> [have := h.1; skip] <;> omega
    exact ⟨mem[a + i], List.getElem?_eq_getElem hl⟩
  obtain ⟨x, ex⟩ := len hx
  obtain ⟨y, ey⟩ := len hy
  exact ⟨x, y, ex, ey, by simp only [List.map, ex, ey, Option.getD_some]; rfl⟩

/-- **C57** The same for `fnGenPositionArray3D`. -/
theorem C57_positions3D (N : Nat) (hN : 0 < N) (o : FOps F) (junk : Lanes F) (node : Node F) (mem : List F) (out : Nat)
    (mm : Ptr) (n : Nat) (hn : 0 < n) (xs ys zs : Nat) (xOff yOff zOff : F) (seed : Int) (hr : Room mem out n mm)
    (hx : Apart mem out n xs ∨ (xs = out ∧ (n ≤ N ∨ N ∣ n))) (hy : Apart mem out n ys ∨ (ys = out ∧ (n ≤ N ∨ N ∣ n)))
    (hz : Apart mem out n zs ∨ (zs = out ∧ (n ≤ N ∨ N ∣ n))) :
    ∃ after f, fnGenPositionArray3D N hN o junk (some node) mem (some out) n (some xs) (some ys) (some zs)
        xOff yOff zOff seed mm = .ok after ∧
      Filled mem after out n f mm ∧
      ∀ i < n, ∃ x y z, mem[xs + i]? = some x ∧ mem[ys + i]? = some y ∧ mem[zs + i]? = some z ∧
        fnGenSingle3D (some node) (o.add xOff x) (o.add yOff y) (o.add zOff z) seed = .ok (f i) := by
  have hb := positions_core N hN o junk (at3 node seed) mem out n hn hr.1 [(xOff, xs), (yOff, ys), (zOff, zs)] (by
    intro a ha
    simp only [List.mem_cons, List.not_mem_nil, or_false] at ha
    rcases ha with rfl | rfl | rfl
    · exact hx
    · exact hy
    · exact hz)
  obtain ⟨after, h1, h2⟩ := filled_of (call := fun buf =>
    genPositionArrayM N hN o junk (at3 node seed) (mem.take out) buf n [(xOff, xs), (yOff, ys), (zOff, zs)]) hr hb
  refine ⟨after, _, h1, h2, fun i hi => ?_⟩
  have len : ∀ {a : Nat}, (Apart mem out n a ∨ (a = out ∧ (n ≤ N ∨ N ∣ n))) → ∃ v, mem[a + i]? = some v := by
    intro a h
    have := hr.1
    have hl : a + i < mem.length := by rcases h with h | h <;> [have := h.1; skip] <;> omega
    exact ⟨mem[a + i], List.getElem?_eq_getElem hl⟩
  obtain ⟨x, ex⟩ := len hx
  obtain ⟨y, ey⟩ := len hy
  obtain ⟨z, ez⟩ := len hz
  exact ⟨x, y, z, ex, ey, ez, by simp only [List.map, ex, ey, ez, Option.getD_some]; rfl⟩

/-- **C57** The same for `fnGenPositionArray4D`. -/
theorem C57_positions4D (N : Nat) (hN : 0 < N) (o : FOps F) (junk : Lanes F) (node : Node F) (mem : List F) (out : Nat)
    (mm : Ptr) (n : Nat) (hn : 0 < n) (xs ys zs ws : Nat) (xOff yOff zOff wOff : F) (seed : Int) (hr : Room mem out n mm)
    (hx : Apart mem out n xs ∨ (xs = out ∧ (n ≤ N ∨ N ∣ n))) (hy : Apart mem out n ys ∨ (ys = out ∧ (n ≤ N ∨ N ∣ n)))
    (hz : Apart mem out n zs ∨ (zs = out ∧ (n ≤ N ∨ N ∣ n))) (hw : Apart mem out n ws ∨ (ws = out ∧ (n ≤ N ∨ N ∣ n))) :
    ∃ after f, fnGenPositionArray4D N hN o junk (some node) mem (some out) n (some xs) (some ys) (some zs) (some ws)
        xOff yOff zOff wOff seed mm = .ok after ∧
      Filled mem after out n f mm ∧
      ∀ i < n, ∃ x y z w, mem[xs + i]? = some x ∧ mem[ys + i]? = some y ∧ mem[zs + i]? = some z ∧
        mem[ws + i]? = some w ∧
        fnGenSingle4D (some node) (o.add xOff x) (o.add yOff y) (o.add zOff z) (o.add wOff w) seed = .ok (f i) := by
  have hb := positions_core N hN o junk (at4 node seed) mem out n hn hr.1
    [(xOff, xs), (yOff, ys), (zOff, zs), (wOff, ws)] (by
    intro a ha
    simp only [List.mem_cons, List.not_mem_nil, or_false] at ha
    rcases ha with rfl | rfl | rfl | rfl
    · exact hx
    · exact hy
    · exact hz
    · exact hw)
  obtain ⟨after, h1, h2⟩ := filled_of (call := fun buf =>
    genPositionArrayM N hN o junk (at4 node seed) (mem.take out) buf n
      [(xOff, xs), (yOff, ys), (zOff, zs), (wOff, ws)]) hr hb
  refine ⟨after, _, h1, h2, fun i hi => ?_⟩
  have len : ∀ {a : Nat}, (Apart mem out n a ∨ (a = out ∧ (n ≤ N ∨ N ∣ n))) → ∃ v, mem[a + i]? = some v := by
    intro a h
    have := hr.1
    have hl : a + i < mem.length := by rcases h with h | h <;> [have := h.1; skip] <;> omega
    exact ⟨mem[a + i], List.getElem?_eq_getElem hl⟩
  obtain ⟨x, ex⟩ := len hx
  obtain ⟨y, ey⟩ := len hy
  obtain ⟨z, ez⟩ := len hz
  obtain ⟨w, ew⟩ := len hw
  exact ⟨x, y, z, w, ex, ey, ez, ew, by simp only [List.map, ex, ey, ez, ew, Option.getD_some]; rfl⟩

/-! ### Examples and limits -/

/-- A node of "floats" 0..999: the sum of seed and coordinates (4D: of the squares). -/
def exNode : Node (Fin 1000) where
  gen2 := fun s x y => Fin.ofNat 1000 s.toNat + x + 10 * y
  gen3 := fun s x y z => Fin.ofNat 1000 s.toNat + x + 10 * y + 100 * z
  gen4 := fun s x y z w => Fin.ofNat 1000 s.toNat + x + 2 * y + 3 * z + 4 * w

/-- A 3x2 grid into the middle of a memory of eleven floats, min/max just behind it. -/
example : fnGenUniformGrid2D 4 (by omega) exOps (some exNode) (List.replicate 11 999) (some 2) 1 2 3 2 1 2 5 (some 8) =
    .ok [999, 999, 26, 27, 28, 46, 47, 48, 26, 48, 999] := by decide +kernel

/-- The hypotheses of `C57_grid2D` hold of that call. -/
example : Room (List.replicate 11 (999 : Fin 1000)) 2 (3 * 2) (some 8) :=
  ⟨by decide, fun p hp => by cases hp; decide⟩

/-- A 2x2x2 grid without min/max. -/
example : fnGenUniformGrid3D 4 (by omega) exOps (some exNode) (List.replicate 9 999) (some 0) 0 0 0 2 2 2 1 1 1 0 none =
    .ok [0, 1, 10, 11, 100, 101, 110, 111, 999] := by decide +kernel

/-- A 2x1x1x3 grid: the fourth axis is the slowest. -/
example : fnGenUniformGrid4D 4 (by omega) exOps (some exNode) (List.replicate 7 999) (some 1) 0 0 0 0 2 1 1 3 1 1 1 1 0 none =
    .ok [999, 0, 1, 4, 5, 8, 9] := by decide +kernel

/-- A tile of 2x2 (with cos, sin the identity and the reciprocal constant 1). -/
example : fnGenTileable2D 4 (by omega) exOps (fun _ => 1) 1 (some exNode) (List.replicate 6 999) (some 0) 2 2 1 1 0 (some 4) =
    .ok [0, 8, 12, 20, 0, 20] := by decide +kernel

/-- Five positions at width 4, apart from the output: right. -/
example : fnGenPositionArray2D 4 (by omega) exOps (fun _ => 7) (some exNode) ([10, 20, 30, 40, 50, 1, 2, 3, 4, 5] ++ List.replicate 7 999)
    (some 10) 5 (some 0) (some 5) 1 2 0 (some 15) =
    .ok [10, 20, 30, 40, 50, 1, 2, 3, 4, 5, 41, 61, 81, 101, 121, 41, 121] := by decide +kernel

example : Apart ([10, 20, 30, 40, 50, 1, 2, 3, 4, 5] ++ List.replicate 7 (999 : Fin 1000)) 10 5 5 := by
  unfold Apart; decide

/-- In three and four dimensions. -/
example : fnGenPositionArray3D 2 (by omega) exOps (fun _ => 7) (some exNode) [1, 2, 3, 4, 5, 6, 7, 8, 9, 0, 0, 0]
    (some 9) 3 (some 0) (some 3) (some 6) 0 0 0 0 none = .ok [1, 2, 3, 4, 5, 6, 7, 8, 9, 741, 852, 963] ∧
  fnGenPositionArray4D 2 (by omega) exOps (fun _ => 7) (some exNode) [1, 2, 3, 4, 5, 6, 7, 8, 9]
    (some 8) 1 (some 0) (some 2) (some 4) (some 6) 0 0 0 0 0 none = .ok [1, 2, 3, 4, 5, 6, 7, 8, 50] := by decide +kernel

/-- **C57, in place** The restriction on `count` when the output array is also a position array is needed: with five
positions at register width 4 the last register reads positions that were already overwritten with noise, so outputs
1, 2 and 3 are wrong (they are the noise of noise), and the minimum and maximum are not those of the outputs. -/
theorem C57_in_place_wrong :
    ∃ (node : Node (Fin 1000)) (mem after : List (Fin 1000)),
      fnGenPositionArray2D 4 (by omega) exOps (fun _ => 0) (some node) mem (some 0) 5 (some 0) (some 5) 0 0 0 (some 10) =
        .ok after ∧
      (∃ x y, mem[1]? = some x ∧ mem[6]? = some y ∧ ∃ v, fnGenSingle2D (some node) x y 0 = .ok v ∧ after[1]? ≠ some v) ∧
      after[10]? = some 5 ∧ 5 ∉ after.take 5 := by
  refine ⟨{ exNode with gen2 := fun _ x y => if x = 5 then 500 else if x = 21 then 5 else x + 10 * y },
    [10, 21, 30, 40, 50, 1, 2, 3, 4, 5, 999, 999],
    [20, 500, 90, 120, 100, 1, 2, 3, 4, 5, 5, 500], by decide +kernel, ?_, ?_, ?_⟩
  · exact ⟨21, 2, by decide, by decide, 5, by decide, by decide +kernel⟩
  · decide +kernel
  · decide +kernel

/-- … so the result of an in-place call depends on the SIMD level: the same call at register widths 4 and 8. -/
theorem C57_in_place_depends_on_width :
    ∃ (node : Node (Fin 1000)) (mem : List (Fin 1000)),
      fnGenPositionArray2D 4 (by omega) exOps (fun _ => 0) (some node) mem (some 0) 5 (some 0) (some 5) 0 0 0 none ≠
        fnGenPositionArray2D 8 (by omega) exOps (fun _ => 0) (some node) mem (some 0) 5 (some 0) (some 5) 0 0 0 none :=
  ⟨exNode, [10, 20, 30, 40, 50, 1, 2, 3, 4, 5], by decide +kernel⟩

/-- In place with a multiple of the register width: right (the other case of the hypotheses of `C57_positions2D`). -/
example : fnGenPositionArray2D 2 (by omega) exOps (fun _ => 0) (some exNode) [10, 20, 30, 40, 1, 2, 3, 4] (some 0) 4 (some 0) (some 4) 0 0 0 none =
    .ok [20, 40, 60, 80, 1, 2, 3, 4] := by decide +kernel

/-- **C57** A `NULL` handle or a `NULL` output array is undefined behaviour in every call. -/
theorem C57_null (N : Nat) (hN : 0 < N) (o : FOps F) (mem : List F) (out mm : Ptr) (xOff yOff : F) (X Y : Int)
    (xStep yStep : F) (seed : Int) (node : Option (Node F)) :
    fnGenUniformGrid2D N hN o none mem out xOff yOff X Y xStep yStep seed mm = .error .badAccess ∧
      fnGenUniformGrid2D N hN o node mem none xOff yOff X Y xStep yStep seed mm = .error .badAccess ∧
      fnGenSingle2D (none : Option (Node F)) xOff yOff seed = .error .badAccess := by
  refine ⟨rfl, ?_, rfl⟩
  cases node <;> rfl

end FastNoise.CGen

namespace FastNoise.RefCount

variable {N T : Nat}

/-- **C40** `fnDeleteNodeRef( NULL )` is documented as a no-op (FastNoise_C.h:30) and is not: in every state it
dereferences `NULL`. -/
theorem C40_delete_null_partial (s : St N T) (t : Fin T) (d : Fin N) (h : s.ptr d = none) : cexec s t (.deleteRef d) = none := by
  unfold cexec
  simp only [h]
  split <;> rfl

/-- Such a handle: the state at the start, where every pointer variable is `NULL` (e.g. the result of
`fnNewFromEncodedNodeTree` on a bad string). -/
example : (St.init : St 2 1).ptr 0 = none := rfl

end FastNoise.RefCount
