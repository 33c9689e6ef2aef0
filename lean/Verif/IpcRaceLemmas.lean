import Verif.IpcRace
namespace FastNoise.Ipc.Race
variable {P : Nat}

def pcOK : Pc → Prop
  | .copy _ text i => text.length ≤ 65532 ∧ i ≤ text.length
  | .pLen b _ i => i ≤ 65533 ∧ b.null = false
  | .pCopy b _ len i out => len ≤ 65533 ∧ i ≤ len ∧ out.length = i ∧ ((len + 1 : Nat) : Int) ≤ b.size ∧ b.null = false
  | _ => True

/-- The last byte of the mapping is never written, so every `strlen` stops. -/
structure Inv (s : St P) : Prop where
  last : s.mem 65535 = 0
  pc : ∀ p, pcOK (s.pc p)
  done : ∀ r ∈ s.done, (r.2.2.2.length : Int) ≤ max 0 r.2.1.size ∧ (r.2.1.null = true → r.2.2.2 = [])

theorem inv_init : Inv (St.init : St P) := ⟨rfl, fun _ => trivial, by simp [St.init]⟩

theorem Inv.go {s : St P} (h : Inv s) {p : Fin P} {c : Pc} (hc : pcOK c) : Inv (s.go p c) := by
  refine ⟨h.last, fun q => ?_, h.done⟩
  simp only [St.go, updP]
  split
  · exact hc
  · exact h.pc q

theorem Inv.mem {s : St P} (h : Inv s) {i : Nat} (v : UInt8) (hi : i ≠ 65535) : Inv { s with mem := upd s.mem i v } := by
  refine ⟨?_, h.pc, h.done⟩
  simp only [upd]
  rw [if_neg (Ne.symm hi)]; exact h.last

theorem Inv.setLast {s : St P} (h : Inv s) (l : Fin P → UInt8) : Inv { s with last := l } := ⟨h.last, h.pc, h.done⟩

theorem Inv.ret {s : St P} (h : Inv s) {p : Fin P} {b : Buf} {code : Int} {out : List UInt8} (h1 : (out.length : Int) ≤ max 0 b.size)
    (h2 : b.null = true → out = []) : Inv (s.ret p b code out) := by
  refine ⟨h.last, fun q => ?_, ?_⟩
  · simp only [St.ret, updP]
    split
    · trivial
    · exact h.pc q
  · intro r hr
    rcases List.mem_cons.mp hr with rfl | hr
    · exact ⟨h1, h2⟩
    · exact h.done r hr

theorem Inv.step {s : St P} (h : Inv s) (p : Fin P) (a : Act) : ∃ s', Race.step s p a = some s' ∧ Inv s' := by
  have hp := h.pc p
  have h0 : ∀ b : Buf, (([] : List UInt8).length : Int) ≤ max 0 b.size := fun b => by simp; omega
  cases a with
  | send imp text =>
    cases hc : s.pc p <;> simp only [Race.step, hc] <;> try exact ⟨_, rfl, h⟩
    split
    · exact ⟨_, rfl, h⟩
    · exact ⟨_, rfl, h.go ⟨by unfold shmSize at *; omega, Nat.zero_le _⟩⟩
  | poll b =>
    cases hc : s.pc p <;> simp only [Race.step, hc] <;> try exact ⟨_, rfl, h⟩
    exact ⟨_, rfl, h.go trivial⟩
  | run =>
    cases hc : s.pc p <;> simp only [Race.step, hc] <;> rw [hc] at hp
    · exact ⟨_, rfl, h⟩
    · obtain ⟨h1, h2⟩ := hp
      split
      · exact ⟨_, rfl, (h.mem _ (by omega)).go ⟨h1, by omega⟩⟩
      · exact ⟨_, rfl, (h.mem _ (by omega)).go trivial⟩
    · exact ⟨_, rfl, (h.mem _ (by omega)).go trivial⟩
    · exact ⟨_, rfl, h.go trivial⟩
    · exact ⟨_, rfl, ((h.mem _ (by omega)).setLast _).go trivial⟩
    · split
      · exact ⟨_, rfl, h.ret (h0 _) fun _ => rfl⟩
      · split
        · exact ⟨_, rfl, (h.setLast _).ret (h0 _) fun _ => rfl⟩
        · split
          · exact ⟨_, rfl, h.ret (h0 _) fun _ => rfl⟩
          · next hb => exact ⟨_, rfl, (h.setLast _).go ⟨by omega, by simp only [not_or, Bool.not_eq_true] at hb; exact hb.1⟩⟩
    · obtain ⟨h1, h2⟩ := hp
      rw [if_pos (by unfold shmSize; omega)]
      split
      · next hne =>
        refine ⟨_, rfl, h.go ⟨?_, h2⟩⟩
        rename_i i
        have : i ≠ 65533 := by
          rintro rfl
          exact hne h.last
        omega
      · split
        · exact ⟨_, rfl, h.ret (h0 _) fun _ => rfl⟩
        · exact ⟨_, rfl, h.go ⟨h1, Nat.zero_le _, rfl, by omega, h2⟩⟩
    · obtain ⟨h1, h2, h3, h4, h5⟩ := hp
      rw [if_pos (by unfold shmSize; omega)]
      split
      · exact ⟨_, rfl, h.go ⟨h1, by omega, by simp [h3], h4, h5⟩⟩
      · exact ⟨_, rfl, h.ret (by simp only [List.length_append, h3, List.length_cons, List.length_nil]; omega) fun e => by rw [h5] at e; cases e⟩

theorem Inv.run {s : St P} (h : Inv s) (l : List (Fin P × Act)) : ∃ s', Race.run s l = some s' ∧ Inv s' := by
  induction l generalizing s with
  | nil => exact ⟨s, rfl, h⟩
  | cons x l ih =>
    obtain ⟨s1, e, h1⟩ := h.step x.1 x.2
    obtain ⟨s2, e2, h2⟩ := ih h1
    exact ⟨s2, by simp only [Race.run, e, Option.bind_some, e2], h2⟩

end FastNoise.Ipc.Race
