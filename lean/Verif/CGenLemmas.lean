import Verif.CGenSpec
import Verif.GridProps

/-! # Lemmas for C57 -/

namespace FastNoise.CGen

open Grid

variable {F : Type} [LinearOrder F] [BoundedOrder F]

omit [LinearOrder F] [BoundedOrder F] in
theorem store_one {mem : List F} {a : Nat} (v : F) (h : a < mem.length) :
    store mem (a : Int) [v] = .ok (mem.set a v) := by
  unfold store
  rw [if_pos ⟨by omega, by simp; omega⟩]
  congr 1
  rw [Int.toNat_natCast, List.set_eq_take_append_cons_drop, if_pos h]
  simp

omit [BoundedOrder F] in
theorem storeMinMax_null (mem : List F) (m : MinMax F) : storeMinMax mem none m = .ok mem := rfl

omit [LinearOrder F] [BoundedOrder F] in
theorem storeMinMax_some {mem : List F} {p : Nat} (m : MinMax F) (h : p + 2 ≤ mem.length) :
    storeMinMax mem (some p) m = .ok ((mem.set p m.min).set (p + 1) m.max) := by
  unfold storeMinMax
  simp only
  rw [store_one m.min (by omega), ok_bind]
  have := store_one (mem := mem.set p m.min) (a := p + 1) m.max (by simp; omega)
  push_cast at this
  exact this

omit [BoundedOrder F] in
/-- From the result of a batch function on the memory from `noiseOut` on, to the whole memory. -/
theorem filled_of {mem : List F} {out T : Nat} {mm : Ptr} {call : List F → Except Err (List F × MinMax F)} {f : Nat → F}
    (hr : Room mem out T mm) (h : BatchResult (call (mem.drop out)) (mem.drop out) T f) :
    ∃ after, withOut mem (some out) mm call = .ok after ∧ Filled mem after out T f mm := by
  obtain ⟨buf, m, hc, hlen, hv, hrest, hmin, hmax⟩ := h
  obtain ⟨hroom, hmm⟩ := hr
  have hpre : (mem.take out).length = out := by simp; omega
  have hlen' : (mem.take out ++ buf).length = mem.length := by simp [hlen]; omega
  have hw : withOut mem (some out) mm call = storeMinMax (mem.take out ++ buf) mm m := by
    unfold withOut need
    rw [ok_bind, hc, ok_bind]
  have hval : ∀ i, i < T → (mem.take out ++ buf)[out + i]? = some (f i) := by
    intro i hi
    rw [List.getElem?_append_right (by omega), hpre, Nat.add_sub_cancel_left, hv i hi]
  have hoth : ∀ j, (j < out ∨ out + T ≤ j) → (mem.take out ++ buf)[j]? = mem[j]? := by
    intro j hj
    rcases hj with hj | hj
    · rw [List.getElem?_append_left (by omega), List.getElem?_take, if_pos hj]
    · rw [List.getElem?_append_right (by omega), hpre, hrest _ (by omega), List.getElem?_drop]
      congr 1; omega
  have hmem : ∀ v, v ∈ buf.take T ↔ ∃ i < T, f i = v := by
    intro v
    rw [List.mem_iff_getElem?]
    constructor
    · rintro ⟨i, hi⟩
      rw [List.getElem?_take] at hi
      split at hi
      · rename_i h
        rw [hv i h] at hi
        exact ⟨i, h, Option.some.inj hi⟩
      · exact absurd hi (by simp)
    · rintro ⟨i, hi, rfl⟩
      exact ⟨i, by rw [List.getElem?_take, if_pos hi, hv i hi]⟩
  have hlo : IsLeast {v | ∃ i < T, f i = v} m.min :=
    ⟨(hmem _).mp hmin.1, fun v hv => hmin.2 v ((hmem v).mpr hv)⟩
  have hhi : IsGreatest {v | ∃ i < T, f i = v} m.max :=
    ⟨(hmem _).mp hmax.1, fun v hv => hmax.2 v ((hmem v).mpr hv)⟩
  cases mm with
  | none =>
    refine ⟨mem.take out ++ buf, by rw [hw]; rfl, hlen', hval, ?_, ?_⟩
    · intro p hp; exact absurd hp (by simp)
    · intro j hj _; exact hoth j hj
  | some p =>
    obtain ⟨hp1, hp2⟩ := hmm p rfl
    refine ⟨_, by rw [hw, storeMinMax_some m (by omega)], by simpa using hlen', ?_, ?_, ?_⟩
    · intro i hi
      rw [List.getElem?_set_ne (by omega), List.getElem?_set_ne (by omega), hval i hi]
    · intro q hq
      cases hq
      refine ⟨m.min, m.max, ?_, ?_, hlo, hhi⟩
      · rw [List.getElem?_set_ne (by omega), List.getElem?_set_self (by omega)]
      · rw [List.getElem?_set_self (by simp only [List.length_set]; omega)]
    · intro j hj hne
      obtain ⟨h1, h2⟩ := hne p rfl
      rw [List.getElem?_set_ne (by omega), List.getElem?_set_ne (by omega), hoth j hj]

/-- The loop of the position array functions on shared memory. -/
theorem posLoop_spec (N : Nat) (hN : 0 < N) (f : Nat → F) (b0 : List F) (T : Nat) (hlen : T ≤ b0.length)
    (val : Int → List F → Except Err (Lanes F))
    (hval : ∀ k, k + N < T → N ∣ k → ∃ g, val k ((List.range k).map f ++ b0.drop k) = .ok g ∧ ∀ i < N, g i = f (k + i)) (n : Nat) :
    ∀ (s : LoopSt Unit F) (k : Nat), T - k = n → s.index = k → k < T → N ∣ k →
      s.buf = (List.range k).map f ++ b0.drop k → LaneInv f N k s.mn s.mx →
      ∃ s' k', posLoop N hN T val s = .ok s' ∧ s'.index = (k' : Nat) ∧ k' < T ∧ T ≤ k' + N ∧ N ∣ k' ∧
        s'.buf = (List.range k').map f ++ b0.drop k' ∧ LaneInv f N k' s'.mn s'.mx := by
  induction n using Nat.strongRecOn with
  | _ n ih =>
    intro s k hn hi hk hd hb hm
    by_cases hc : k + N < T
    · obtain ⟨g, hg, hgf⟩ := hval k hc hd
      have hst : store ((List.range k).map f ++ b0.drop k) (k : Int) (laneList N g) =
          .ok ((List.range (k + N)).map f ++ b0.drop (k + N)) := store_next f b0 k N g hgf (by omega)
      unfold posLoop
      rw [if_pos (by omega), hi, hb, hg]
      simp only
      rw [hst]
      simp only
      refine ih (T - (k + N)) (by omega) _ (k + N) rfl (by push_cast; rfl) hc (Nat.dvd_add hd (Nat.dvd_refl N)) rfl ?_
      exact hm.step k hgf (le_refl k) (by omega) rfl
    · refine ⟨s, k, ?_, hi, hk, by omega, hd, hb, hm⟩
      unfold posLoop
      rw [if_neg (by omega)]

omit [LinearOrder F] [BoundedOrder F] in
/-- An array apart from the outputs, or the output array itself from index `k` on, still has its old contents. -/
theorem read_old {mem : List F} {out T k : Nat} (f : Nat → F) (hout : out + T ≤ mem.length) (hk : k ≤ T) {a : Nat}
    (ha : Apart mem out T a ∨ a = out) (j : Nat) (hj : j < T) (hjk : a = out → k ≤ j) :
    ((mem.take out ++ ((List.range k).map f ++ (mem.drop out).drop k)).drop a)[j]? = mem[a + j]? := by
  have hpre : (mem.take out).length = out := by simp; omega
  rw [List.getElem?_drop]
  have right : k + out ≤ a + j →
      (mem.take out ++ ((List.range k).map f ++ (mem.drop out).drop k))[a + j]? = mem[a + j]? := by
    intro h
    rw [List.getElem?_append_right (by omega), hpre, List.getElem?_append_right (by simp; omega), List.getElem?_drop,
      List.getElem?_drop]
    congr 1; simp; omega
  rcases ha with ⟨h1, h2 | h2⟩ | rfl
  · rw [List.getElem?_append_left (by omega), List.getElem?_take, if_pos (by omega)]
  · exact right (by omega)
  · exact right (by have := hjk rfl; omega)

/-- `GenPositionArray*` on shared memory. -/
theorem positions_core (N : Nat) (hN : 0 < N) (o : FOps F) (junk : Lanes F) (gen : List F → F) (mem : List F) (out n : Nat)
    (hn : 0 < n) (hout : out + n ≤ mem.length) (arrs : List (F × Nat))
    (harr : ∀ a ∈ arrs, Apart mem out n a.2 ∨ (a.2 = out ∧ (n ≤ N ∨ N ∣ n))) :
    BatchResult (genPositionArrayM N hN o junk gen (mem.take out) (mem.drop out) n arrs) (mem.drop out) n
      (fun i => gen (arrs.map fun a => o.add a.1 (mem[a.2 + i]?.getD ⊤))) := by
  have hbuf : n ≤ (mem.drop out).length := by simp; omega
  refine batchResult_of hn hbuf ?_
  generalize hf : (fun i => gen (arrs.map fun a => o.add a.1 (mem[a.2 + i]?.getD ⊤))) = f
  have hfi : ∀ i, f i = gen (arrs.map fun a => o.add a.1 (mem[a.2 + i]?.getD ⊤)) := fun i => by rw [← hf]
  -- arrays are long enough, whatever has been written
  have hlong : ∀ k ≤ n, ∀ a ∈ arrs, n ≤ ((mem.take out ++ ((List.range k).map f ++ (mem.drop out).drop k)).drop a.2).length := by
    intro k hk a ha
    have : a.2 + n ≤ mem.length := by
      rcases harr a ha with h | h
      · exact h.1
      · omega
    simp; omega
  have zip : ∀ (m' : List F) (g : List F → Lanes F) (i j : Nat), (∀ a ∈ arrs, g (m'.drop a.2) i = mem[a.2 + j]?.getD ⊤) →
      List.zipWith (fun (a : F × Nat) (v : Lanes F) => o.add a.1 (v i)) arrs ((arrs.map fun a => m'.drop a.2).map g) =
        arrs.map fun a => o.add a.1 (mem[a.2 + j]?.getD ⊤) := by
    intro m' g i j h
    rw [List.map_map, List.zipWith_map_right]
    clear hlong harr hf hfi
    induction arrs with
    | nil => rfl
    | cons a as ih =>
      rw [List.zipWith_cons_cons, List.map_cons, ih (fun b hb => h b (List.mem_cons_of_mem _ hb))]
      have := h a List.mem_cons_self
      simp only [Function.comp, this]
  have hold : ∀ k ≤ n, ∀ a ∈ arrs, ∀ j < n, (a.2 = out → k ≤ j) →
      ((mem.take out ++ ((List.range k).map f ++ (mem.drop out).drop k)).drop a.2)[j]? = mem[a.2 + j]? := by
    intro k hk a ha j hj hjk
    exact read_old f hout hk ((harr a ha).imp id And.left) j hj hjk
  obtain ⟨s, k, he, hi, hk, hkN, hdvd, hb, hm⟩ := posLoop_spec N hN f (mem.drop out) n hbuf
    (fun index b => do pure ((fun (vs : List (Lanes F)) (i : Nat) =>
      gen (List.zipWith (fun a v => o.add a.1 (v i)) arrs vs))
        (← loadAll (fun a => loadN N a index) (arrs.map fun a => (mem.take out ++ b).drop a.2))))
    (by
      intro k hc _
      have := loadAll_ok (fun a => loadN N a (k : Int))
        (arrs.map fun a => (mem.take out ++ ((List.range k).map f ++ (mem.drop out).drop k)).drop a.2)
        (fun a i => a[k + i]?.getD ⊤)
        (by
          intro b hb
          obtain ⟨a, ha, rfl⟩ := List.mem_map.mp hb
          have := hlong k (by omega) a ha
          unfold loadN
          rw [if_pos (by omega), Int.toNat_natCast])
      refine ⟨_, by rw [this, ok_bind, ok_pure], ?_⟩
      intro i hi
      simp only
      rw [zip _ _ i (k + i) (fun a ha => by rw [hold k (by omega) a ha (k + i) (by omega) (by omega)]), hfi])
    n (start () (mem.drop out)) 0 (by omega) rfl hn (Nat.dvd_zero N) (by simp [start]) (LaneInv.init _ N)
  generalize hM : mem.take out ++ ((List.range k).map f ++ (mem.drop out).drop k) = M at *
  have hlongM : ∀ a ∈ arrs, n ≤ (M.drop a.2).length := fun a ha => by rw [← hM]; exact hlong k (by omega) a ha
  have holdM : ∀ a ∈ arrs, ∀ j < n, (a.2 = out → k ≤ j) → (M.drop a.2)[j]? = mem[a.2 + j]? := fun a ha j hj h => by
    rw [← hM]; exact hold k (by omega) a ha j hj h
  -- the final register
  obtain ⟨g, hg, hg0, hgN⟩ : ∃ g : List F → Lanes F,
      (∀ a ∈ arrs, loadRemaining N junk (M.drop a.2) n s.index = .ok (g (M.drop a.2))) ∧
      (k = 0 → ∀ a ∈ arrs, ∀ i, i < n → g (M.drop a.2) i = mem[a.2 + i]?.getD ⊤) ∧
      (k ≠ 0 → ∀ a ∈ arrs, ∀ i < N, g (M.drop a.2) i = mem[a.2 + (n - N + i)]?.getD ⊤) := by
    by_cases h0 : k = 0
    · refine ⟨fun a i => if (i : Int) < (n : Int) - s.index then a[i]?.getD ⊤ else junk i, ?_, ?_, ?_⟩
      · intro a ha
        have := hlongM a ha
        unfold loadRemaining
        rw [if_pos (by omega), if_neg (by omega)]
      · intro _ a ha i hin
        simp only
        rw [if_pos (by omega), holdM a ha i hin (by omega)]
      · intro h; exact absurd h0 h
    · have hNk : N ≤ k := Nat.le_of_dvd (by omega) hdvd
      refine ⟨fun a i => a[n - N + i]?.getD ⊤, ?_, ?_, ?_⟩
      · intro a ha
        have := hlongM a ha
        unfold loadRemaining loadN
        rw [if_neg (by omega), if_pos (by omega)]
        have : ((n : Int) - N).toNat = n - N := by omega
        rw [this]
      · intro h; exact absurd h h0
      · intro _ a ha i hiN
        simp only
        rw [holdM a ha _ (by omega)]
        intro ea
        rcases harr a ha with h | ⟨-, h | h⟩
        · obtain ⟨h1, h2⟩ := h; omega
        · omega
        · obtain ⟨q, hq⟩ := hdvd
          obtain ⟨r, hr⟩ := h
          have hqr : q < r := by
            by_contra hx
            have := Nat.mul_le_mul_left N (Nat.le_of_not_lt hx)
            omega
          have h5 := Nat.mul_le_mul_left N (show q + 1 ≤ r from hqr)
          rw [Nat.mul_add] at h5
          omega
  have hla := loadAll_ok (fun a => loadRemaining N junk a n s.index) (arrs.map fun a => M.drop a.2) g
    (by intro b hb; obtain ⟨a, ha, rfl⟩ := List.mem_map.mp hb; exact hg a ha)
  obtain ⟨m, hr, hmm⟩ := storeRemaining_spec f (mem.drop out) N k n true
    s.mn s.mx (fun i => gen (List.zipWith (fun a v => o.add a.1 (v i)) arrs ((arrs.map fun a => M.drop a.2).map g))) hm hk hkN hbuf
    (by
      intro h0 i hlt
      have h0 := h0 rfl
      subst h0
      rw [Nat.zero_add] at hlt ⊢
      rw [zip M g i i (fun a ha => hg0 rfl a ha i hlt), hfi])
    (by
      intro _ h0
      have hNk : N ≤ k := Nat.le_of_dvd (by omega) hdvd
      refine ⟨by omega, ?_⟩
      intro i hi
      rw [zip M g i (n - N + i) (fun a ha => hgN h0 a ha i hi), hfi])
  refine ⟨m, ?_, hmm⟩
  unfold genPositionArrayM
  simp only at he ⊢
  rw [he, ok_bind, hb, hM, hla, ok_bind, hi, hr]

end FastNoise.CGen
