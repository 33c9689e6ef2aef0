import Verif.IpcRace
import Mathlib.Tactic.Ring

/-! # A send and a poll that nothing interrupts

Lemmas for `C20_uninterrupted_delivery`: the byte-by-byte model of `IpcRace` agrees with the English meaning of send and poll when
the calls do not overlap. -/

namespace FastNoise.Ipc.Race

variable {P : Nat}

theorem run_append (s : St P) (l l' : List (Fin P × Act)) : run s (l ++ l') = (run s l).bind fun s' => run s' l' := by
  induction l generalizing s with
  | nil => simp [run]
  | cons a l ih =>
    obtain ⟨p, a⟩ := a
    simp only [List.cons_append, run]
    cases step s p a with
    | none => rfl
    | some s1 => simp [ih]

theorem run_rep_succ (s : St P) (p : Fin P) (n : Nat) :
    run s (List.replicate (n + 1) (p, .run)) = (step s p .run).bind fun s' => run s' (List.replicate n (p, .run)) := by
  rw [List.replicate_succ]; rfl

@[simp] theorem updP_same {β : Type} (f : Fin P → β) (a : Fin P) (b : β) : updP f a b a = b := by simp [updP]
theorem updP_ne {β : Type} (f : Fin P → β) {a x : Fin P} (b : β) (h : x ≠ a) : updP f a b x = f x := by simp [updP, h]
@[simp] theorem updP_updP {β : Type} (f : Fin P → β) (a : Fin P) (b b' : β) : updP (updP f a b) a b' = updP f a b' := by
  funext x; simp only [updP]; split <;> rfl

/-- The copying loop of a send. -/
theorem copy_run (type : UInt8) (text : List UInt8) (p : Fin P) (n : Nat) : ∀ (i : Nat) (s : St P), s.pc p = .copy type text i → i + n = text.length →
    ∃ m, run s (List.replicate (n + 1) (p, .run)) = some { s with mem := m, pc := updP s.pc p (.typ type) } ∧
      (∀ j, m j = if 2 + i ≤ j ∧ j ≤ 2 + text.length then (text ++ [0]).getD (j - 2) 0 else s.mem j) := by
  induction n with
  | zero =>
    intro i s h hi
    refine ⟨upd s.mem (2 + i) ((text ++ [0]).getD i 0), ?_, fun j => ?_⟩
    · simp [run, step, h, show ¬ i < text.length by omega, St.go]
    · simp only [upd]
      by_cases hj : j = 2 + i
      · subst hj; rw [if_pos rfl, if_pos (by omega)]; congr 1; omega
      · rw [if_neg hj, if_neg (by omega)]
  | succ n ih =>
    intro i s h hi
    rw [run_rep_succ]
    simp only [step, h, show i < text.length by omega, if_true, Option.bind_some]
    obtain ⟨m, h1, h2⟩ := ih (i + 1) (({ s with mem := upd s.mem (2 + i) ((text ++ [0]).getD i 0) } : St P).go p (.copy type text (i + 1))) (by simp [St.go]) (by omega)
    refine ⟨m, ?_, fun j => ?_⟩
    · rw [h1]; simp [St.go]
    · rw [h2]
      simp only [St.go, upd]
      by_cases hj : j = 2 + i
      · subst hj; rw [if_neg (by omega), if_pos rfl, if_pos (by omega)]; congr 1; omega
      · by_cases hj2 : 2 + (i + 1) ≤ j ∧ j ≤ 2 + text.length
        · rw [if_pos hj2, if_pos (by omega)]
        · rw [if_neg hj2, if_neg hj, if_neg (by omega)]

/-- A whole send. -/
theorem send_run (s : St P) (p : Fin P) (imp : Bool) (text : List UInt8) (hp : s.pc p = .idle) (ht : text.length + 3 < shmSize) :
    ∃ m, run s ([(p, .send imp text)] ++ List.replicate (text.length + 4) (p, .run)) =
        some { s with mem := m, last := updP s.last p (s.mem 0 + 1), pc := updP s.pc p .idle } ∧
      m 0 = s.mem 0 + 1 ∧ m 1 = typeOf imp ∧ ∀ j, j ≤ text.length → m (2 + j) = (text ++ [0]).getD j 0 := by
  obtain ⟨m, h1, h2⟩ := copy_run (typeOf imp) text p text.length 0 (s.go p (.copy (typeOf imp) text 0)) (by simp [St.go]) (by omega)
  refine ⟨upd (upd m 1 (typeOf imp)) 0 (s.mem 0 + 1), ?_, by simp [upd], by simp [upd], fun j hj => ?_⟩
  · rw [run_append]
    simp only [run, step, hp, show ¬ text.length + 3 ≥ shmSize by omega, if_false, Option.bind_some]
    rw [show text.length + 4 = (text.length + 1) + 3 by ring, ← List.replicate_append_replicate, run_append, h1]
    have h0 : m 0 = s.mem 0 := by rw [h2]; simp [St.go]
    simp [run, step, List.replicate_succ, St.go, upd, h0]
  · simp only [upd, show 2 + j ≠ 0 by omega, show 2 + j ≠ 1 by omega, if_false]
    rw [h2, if_pos (by omega)]; congr 1; omega

/-- The `strlen` loop of a poll. -/
theorem len_run (b : Buf) (type : UInt8) (text : List UInt8) (q : Fin P) (hz : ∀ c ∈ text, c ≠ 0) (ht : text.length + 3 < shmSize)
    (hb : (text.length : Int) + 1 ≤ b.size) (n : Nat) : ∀ (i : Nat) (s : St P),
    (∀ j, j ≤ text.length → s.mem (2 + j) = (text ++ [0]).getD j 0) → s.pc q = .pLen b type i → i + n = text.length →
    run s (List.replicate (n + 1) (q, .run)) = some (s.go q (.pCopy b type text.length 0 [])) := by
  induction n with
  | zero =>
    intro i s hm h hi
    have hi' : i = text.length := by omega
    subst hi'
    have h0 := hm text.length (by omega)
    simp only [List.getD_eq_getElem?_getD, List.getElem?_append_right (Nat.le_refl _), Nat.sub_self] at h0
    simp only [List.getElem?_cons_zero, Option.getD_some] at h0
    simp [run, step, h, show 2 + text.length < shmSize by omega, h0, show ¬ b.size < (text.length : Int) + 1 by omega]
  | succ n ih =>
    intro i s hm h hi
    have hlt : i < text.length := by omega
    have h0 := hm i (by omega)
    have hne : s.mem (2 + i) ≠ 0 := by
      rw [h0, List.getD_eq_getElem?_getD, List.getElem?_append_left hlt, List.getElem?_eq_getElem hlt]
      exact hz _ (List.getElem_mem hlt)
    rw [run_rep_succ]
    simp only [step, h, show 2 + i < shmSize by omega, if_true, hne, ne_eq, not_false_eq_true, Option.bind_some]
    rw [ih (i + 1) (s.go q (.pLen b type (i + 1))) hm (by simp [St.go]) (by omega)]
    simp [St.go]

/-- The copying loop of a poll. -/
theorem out_run (b : Buf) (type : UInt8) (text : List UInt8) (q : Fin P) (ht : text.length + 3 < shmSize) (n : Nat) : ∀ (i : Nat) (s : St P),
    (∀ j, j ≤ text.length → s.mem (2 + j) = (text ++ [0]).getD j 0) → s.pc q = .pCopy b type text.length i ((text ++ [0]).take i) → i + n = text.length →
    run s (List.replicate (n + 1) (q, .run)) = some (s.ret q b type.toNat (text ++ [0])) := by
  have key : ∀ i, i ≤ text.length → (text ++ [0]).take i ++ [(text ++ [0]).getD i 0] = (text ++ [0]).take (i + 1) := by
    intro i hi
    have : i < (text ++ [(0 : UInt8)]).length := by simp; omega
    rw [List.take_add_one, List.getD_eq_getElem?_getD, List.getElem?_eq_getElem this]; rfl
  induction n with
  | zero =>
    intro i s hm h hi
    have h0 := hm i (by omega)
    have hk := key i (by omega)
    simp only [List.replicate, run, step, h, show 2 + i < shmSize by omega, if_true, h0, hk, show ¬ i < text.length by omega, if_false, Option.bind_some]
    rw [List.take_of_length_le (by simp; omega)]
  | succ n ih =>
    intro i s hm h hi
    have h0 := hm i (by omega)
    have hk := key i (by omega)
    rw [run_rep_succ]
    simp only [step, h, show 2 + i < shmSize by omega, if_true, h0, hk, show i < text.length by omega, Option.bind_some]
    have hr := ih (i + 1) (s.go q (.pCopy b type text.length (i + 1) (List.take (i + 1) (text ++ [0])))) hm (by simp [St.go]) (by omega)
    rw [hr]
    simp [St.go, St.ret]

/-- A whole poll that finds a message. -/
theorem poll_run (s : St P) (q : Fin P) (b : Buf) (type : UInt8) (text : List UInt8) (hq : s.pc q = .idle) (hz : ∀ c ∈ text, c ≠ 0)
    (ht : text.length + 3 < shmSize) (hb : b.null = false) (hs : (text.length : Int) + 1 ≤ b.size) (hc : s.mem 0 ≠ s.last q)
    (h1 : s.mem 1 = type) (hty : type = 1 ∨ type = 2) (hm : ∀ j, j ≤ text.length → s.mem (2 + j) = (text ++ [0]).getD j 0) :
    run s ([(q, .poll b)] ++ List.replicate (2 * text.length + 3) (q, .run)) =
      some { s with last := updP s.last q (s.mem 0), pc := updP s.pc q .idle, done := (q, b, (type.toNat : Int), text ++ [0]) :: s.done } := by
  have hty' : ¬ (type ≠ 1 ∧ type ≠ 2) := by tauto
  rw [run_append]
  simp only [run, step, hq, Option.bind_some]
  rw [show 2 * text.length + 3 = (text.length + 1) + (text.length + 1) + 1 by ring, run_rep_succ]
  simp only [step, St.go, updP_same, updP_updP, hc, if_false, h1, hty', hb, show ¬ b.size ≤ 0 by omega, Bool.false_eq_true, or_self, Option.bind_some]
  rw [← List.replicate_append_replicate, run_append,
    len_run b type text q hz ht hs text.length 0 ({ s with last := updP s.last q (s.mem 0), pc := updP s.pc q (.pLen b type 0) }) hm (by simp) (by omega)]
  simp only [Option.bind_some, St.go, updP_updP]
  rw [out_run b type text q ht text.length 0 ({ s with last := updP s.last q (s.mem 0), pc := updP s.pc q (.pCopy b type text.length 0 []) }) hm (by simp) (by omega)]
  simp [St.ret]

end FastNoise.Ipc.Race
