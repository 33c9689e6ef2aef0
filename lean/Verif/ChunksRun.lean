import Verif.ChunksInv

/-! Runs of the chunk streaming: coverage, order of requests, progress. -/

namespace FastNoise.Chunks
open FastNoise.Mesh

theorem run_cons {s s' : St} {op : Op} {ops : List Op} : run s (op :: ops) = some s' ↔ ∃ s1, step s op = some s1 ∧ run s1 ops = some s' := by
  simp only [run, Option.bind_eq_some_iff]

theorem run_append {s s' : St} {a b : List Op} : run s (a ++ b) = some s' ↔ ∃ s1, run s a = some s1 ∧ run s1 b = some s' := by
  induction a generalizing s with
  | nil => simp [run]
  | cons op a ih =>
    simp only [List.cons_append, run_cons, ih]
    constructor
    · rintro ⟨s1, h1, s2, h2, h3⟩; exact ⟨s2, ⟨s1, h1, h2⟩, h3⟩
    · rintro ⟨s2, ⟨s1, h1, h2⟩, h3⟩; exact ⟨s1, h1, s2, h2, h3⟩

/-- What a request does. -/
theorem request_spec {s s' : St} {cam : I3} {order : List I3} (h : step s (.request cam order) = some s') :
    Idle s ∧ SortedBy (ground s.height cam) (candidates s.height s.range s.stagger s.registered cam) order ∧
      s' = { s with pending := order, stagger := s.stagger + 1 } := by
  simp only [step] at h
  split at h
  · cases h
  · next hn =>
    split at h
    · next ho =>
      cases h
      refine ⟨⟨by simpa using fun hc => hn (Or.inl hc), by by_contra hc; exact hn (Or.inr hc)⟩, ho, rfl⟩
    · cases h

/-- Facts about one step of a steady schedule. -/
theorem steady_step {s s1 : St} {cam : I3} {op : Op} (I : Inv s) (hs : Steady cam [op]) (h : step s op = some s1) :
    (∀ p ∈ s.registered, p ∈ s1.registered) ∧ s.range ≤ s1.range ∧ s1.height = s.height ∧ s1.stagger = s.stagger + requests [op] ∧ s.cut ≤ s1.cut ∧
      s1.gen = s.gen ∧ s1.threads = s.threads := by
  have hs := hs op (by simp)
  cases op with
  | regenerate | unload | shrink => exact hs.elim
  | request cam' order =>
    obtain ⟨_, _, rfl⟩ := request_spec h
    simp [requests]
  | grow =>
    simp only [step] at h
    split at h
    · cases h
    · cases h
      have hm := modifier_bounds (r := s.range) (by linarith [I.range.1])
      refine ⟨fun _ h => h, le_min ?_ I.range.2, rfl, rfl, Nat.le_refl _, rfl, rfl⟩
      nlinarith [I.range.1, hm.1]
  | push =>
    simp only [step] at h
    split at h
    · cases h
    · split at h <;> cases h
      · exact ⟨fun _ h => by simp [h], le_refl _, rfl, rfl, by simp, rfl, rfl⟩
      · exact ⟨fun _ h => by simp [h], le_refl _, rfl, rfl, Nat.le_refl _, rfl, rfl⟩
  | drainOne | drainEnd | consume | sort | take | finish =>
    simp only [step] at h
    repeat' split at h
    all_goals first
      | (cases h; done)
      | (cases h; exact ⟨fun _ h => h, le_refl _, rfl, rfl, Nat.le_refl _, rfl, rfl⟩)

theorem steady_cons {cam : I3} {op : Op} {ops : List Op} (h : Steady cam (op :: ops)) : Steady cam [op] ∧ Steady cam ops :=
  ⟨fun o ho => h o (by simp at ho; simp [ho]), fun o ho => h o (by simp [ho])⟩

theorem requests_cons (op : Op) (ops : List Op) : requests (op :: ops) = requests [op] + requests ops := by
  cases op <;> simp [requests]; omega

theorem steady_run {s s' : St} {cam : I3} {ops : List Op} (hb : s.gen < 2 ^ 32) (I : Inv s) (hs : Steady cam ops) (h : run s ops = some s') :
    (∀ p ∈ s.registered, p ∈ s'.registered) ∧ s.cut ≤ s'.cut := by
  induction ops generalizing s with
  | nil => cases h; exact ⟨fun _ h => h, Nat.le_refl _⟩
  | cons op ops ih =>
    obtain ⟨s1, h1, h2⟩ := run_cons.mp h
    obtain ⟨a, _, _, _, b, g, _⟩ := steady_step I (steady_cons hs).1 h1
    obtain ⟨c, d⟩ := ih (by rw [g]; exact hb) (step_inv hb I h1).1 (steady_cons hs).2 h2
    exact ⟨fun p hp => c p (a p hp), b.trans d⟩

/-- A pending position is registered unless the frame is cut short. -/
theorem pending_registered {s s' : St} {cam : I3} {ops : List Op} (hb : s.gen < 2 ^ 32) (I : Inv s) (hs : Steady cam ops) (h : run s ops = some s')
    (hend : s'.pending = []) (hcut : s'.cut = s.cut) {p : I3} (hp : p ∈ s.pending) : p ∈ s'.registered := by
  induction ops generalizing s with
  | nil => cases h; rw [hend] at hp; cases hp
  | cons op ops ih =>
    obtain ⟨s1, h1, h2⟩ := run_cons.mp h
    obtain ⟨a, _, _, _, b, g, _⟩ := steady_step I (steady_cons hs).1 h1
    have hb1 : s1.gen < 2 ^ 32 := by rw [g]; exact hb
    have I1 := (step_inv hb I h1).1
    obtain ⟨c, d⟩ := steady_run hb1 I1 (steady_cons hs).2 h2
    have hne : s.pending ≠ [] := List.ne_nil_of_mem hp
    have hnd : s.draining = false := by
      by_contra hc
      exact hne (I.drain (by simpa using hc)).2.2.2.1
    by_cases hreg : p ∈ s1.registered
    · exact c p hreg
    have hkeep : p ∈ s1.pending := by
      have hso := hs op (by simp)
      cases op with
      | regenerate | unload | shrink => exact hso.elim
      | request cam' order => exact absurd (request_spec h1).1.2 hne
      | push =>
        simp only [step] at h1
        split at h1
        · cases h1
        · next q rest he =>
          rw [he] at hp
          split at h1
          · cases h1
            rcases List.mem_cons.mp hp with rfl | hp
            · exact absurd (by simp) hreg
            · have hr : rest ≠ [] := List.ne_nil_of_mem hp
              simp only [hr, if_false] at d hcut
              omega
          · cases h1
            rcases List.mem_cons.mp hp with rfl | hp
            · exact absurd (by simp) hreg
            · exact hp
      | grow | consume | sort => simp [step, hne] at h1
      | drainOne | drainEnd => simp [step, hnd] at h1
      | take | finish =>
        simp only [step] at h1
        repeat' split at h1
        all_goals first
          | (cases h1; done)
          | (cases h1; exact hp)
    exact ih hb1 I1 (steady_cons hs).2 h2 (by omega) hkeep

theorem wanted_mono {h : Bool} {r r' : ℝ} {cam p : I3} (h0 : 0 ≤ r) (hr : r ≤ r') (hw : Wanted h r cam p) : Wanted h r' cam p :=
  ⟨hw.1, hw.2.1, hw.2.2.trans (by nlinarith)⟩

theorem coverage {s s' : St} {cam : I3} {ops : List Op} (hb : s.gen < 2 ^ 32) (I : Inv s) (hs : Steady cam ops) (h : run s ops = some s')
    (hend : s'.pending = []) (hcut : s'.cut = s.cut) {p : I3} (hw : Wanted s.height s.range cam p)
    (ht : ∃ t : Nat, s.stagger ≤ t ∧ t < s.stagger + requests ops ∧ (32 : ℤ) ∣ column cam p - t) : p ∈ s'.registered := by
  induction ops generalizing s with
  | nil => obtain ⟨t, h1, h2, _⟩ := ht; simp [requests] at h2; omega
  | cons op ops ih =>
    obtain ⟨s1, h1, h2⟩ := run_cons.mp h
    obtain ⟨a, ra, ha, ta, b, g, _⟩ := steady_step I (steady_cons hs).1 h1
    have hb1 : s1.gen < 2 ^ 32 := by rw [g]; exact hb
    have I1 := (step_inv hb I h1).1
    obtain ⟨c, d⟩ := steady_run hb1 I1 (steady_cons hs).2 h2
    obtain ⟨t, t1, t2, t3⟩ := ht
    by_cases hnow : s1.stagger ≤ t
    · rw [requests_cons] at t2
      exact ih hb1 I1 (steady_cons hs).2 h2 (by omega) (by rw [ha]; exact wanted_mono (by linarith [I.range.1]) ra hw) ⟨t, hnow, by omega, t3⟩
    · have hso := hs op (by simp)
      cases op with
      | request cam' order =>
        obtain rfl : cam' = cam := hso
        obtain ⟨_, ho, rfl⟩ := request_spec h1
        simp only at hnow
        obtain rfl : t = s.stagger := by omega
        by_cases hreg : p ∈ s.registered
        · exact c p hreg
        · refine pending_registered hb1 I1 (steady_cons hs).2 h2 hend (by omega) (p := p) ?_
          refine ho.1.mem_iff.mpr ((mem_candidates (by linarith [I.range.1])).mpr ⟨hw, hreg, dvd_trans ?_ t3⟩)
          exact pow_dvd_pow (2 : ℤ) (n := 5) (shift_le _)
      | _ => simp only [requests] at ta; omega

/-- Pushes of a frame take a prefix of the sorted list. -/
theorem quiet_prefix {s s' : St} {ops : List Op} (hq : ∀ op ∈ ops, op.quiet = true) (h : run s ops = some s') :
    ∃ d, d <+: s.pending ∧ s'.registered = d.reverse ++ s.registered := by
  induction ops generalizing s with
  | nil => cases h; exact ⟨[], List.nil_prefix, rfl⟩
  | cons op ops ih =>
    obtain ⟨s1, h1, h2⟩ := run_cons.mp h
    obtain ⟨d, ⟨r, hr⟩, hd⟩ := ih (fun o ho => hq o (by simp [ho])) h2
    have hqo := hq op (by simp)
    cases op with
    | push =>
      simp only [step] at h1
      split at h1
      · cases h1
      · next q rest he =>
        split at h1
        · cases h1
          simp only [List.append_eq_nil_iff] at hr
          refine ⟨[q], ⟨rest, by rw [he]; rfl⟩, ?_⟩
          rw [hd, hr.1]; simp
        · cases h1
          simp only at hr
          refine ⟨q :: d, ⟨r, by rw [he, ← hr]; rfl⟩, ?_⟩
          rw [hd]; simp
    | take | finish =>
      simp only [step] at h1
      repeat' split at h1
      all_goals first
        | (cases h1; done)
        | (cases h1; exact ⟨d, ⟨r, hr⟩, hd⟩)
    | _ => simp [Op.quiet] at hqo

/-- In height map mode all positions lie in the layer at height 0. -/
def Flat (s : St) : Prop := s.height = true → (∀ p ∈ s.registered, p.y = 0) ∧ ∀ p ∈ s.pending, p.y = 0

theorem flat_step {s s' : St} {op : Op} (I : Inv s) (F : Flat s) (h : step s op = some s') : Flat s' := by
  cases op with
  | request cam order =>
    obtain ⟨_, ho, rfl⟩ := request_spec h
    intro hh
    refine ⟨(F hh).1, fun p hp => ?_⟩
    exact ((mem_candidates (by linarith [I.range.1])).mp (ho.1.mem_iff.mp hp)).1.2.1 hh
  | push =>
    simp only [step] at h
    split at h
    · cases h
    · next q rest he =>
      have key : ∀ l c, (∀ p ∈ l, p ∈ rest) → Flat { s with registered := q :: s.registered, jobs := s.jobs ++ [⟨q, s.version, s.gen⟩], pending := l, cut := c } := by
        intro l c hl hh
        obtain ⟨f1, f2⟩ := F hh
        rw [he] at f2
        refine ⟨?_, fun p hp => f2 p (by simp [hl p hp])⟩
        intro p hp
        rcases List.mem_cons.mp hp with rfl | hp
        · exact f2 _ (by simp)
        · exact f1 p hp
      split at h <;> cases h
      · exact key [] _ (by simp)
      · exact key rest s.cut fun _ h => h
  | unload cam =>
    simp only [step] at h
    repeat' split at h
    all_goals first
      | (cases h; done)
      | (cases h; exact fun hh => ⟨fun p hp => (F hh).1 p (List.mem_filter.mp hp).1, (F hh).2⟩)
  | regenerate hh =>
    simp only [step] at h
    split at h
    · cases h
    · next hn =>
      cases h
      have hp : s.pending = [] := by by_contra hc; exact hn (Or.inr hc)
      simp [Flat, hp]
  | _ =>
    simp only [step] at h
    repeat' split at h
    all_goals first
      | (cases h; done)
      | (cases h; exact F)

theorem flat_run {s s' : St} {ops : List Op} (hb : s'.gen < 2 ^ 32) (I : Inv s) (F : Flat s) (h : run s ops = some s') : Flat s' := by
  induction ops generalizing s with
  | nil => cases h; exact F
  | cons op ops ih =>
    have hg : s.gen < 2 ^ 32 := Nat.lt_of_le_of_lt (run_inv hb I h).2 hb
    obtain ⟨s1, h1, h2⟩ := run_cons.mp h
    exact ih (step_inv hg I h1).1 (flat_step I F h1) h2

/-- Pushes alternating with workers that take the job empty the list of a frame. -/
theorem pushes_exist {s : St} (hj : s.jobs = []) (ht : 0 < s.threads) : ∃ ops s', (∀ op ∈ ops, op.quiet = true) ∧ run s ops = some s' ∧
    s' = { s with pending := [], registered := s'.registered, busy := s'.busy } ∧
    s'.busy = (s.pending.map fun p => ⟨p, s.version, s.gen⟩).reverse ++ s.busy := by
  generalize hl : s.pending = l
  induction l generalizing s with
  | nil => exact ⟨[], s, by simp, rfl, by rw [← hl], by simp⟩
  | cons p l ih =>
    have h1 : step s .push = some { s with registered := p :: s.registered, jobs := [⟨p, s.version, s.gen⟩], pending := l } := by
      simp only [step, hl, hj, List.nil_append, List.length_singleton]
      rw [if_neg (by omega)]
    have h2 : step { s with registered := p :: s.registered, jobs := [⟨p, s.version, s.gen⟩], pending := l } .take =
        some { s with registered := p :: s.registered, jobs := [], pending := l, busy := ⟨p, s.version, s.gen⟩ :: s.busy } := rfl
    obtain ⟨ops, s', o1, o2, o3, o4⟩ := ih (s := { s with registered := p :: s.registered, jobs := [], pending := l, busy := ⟨p, s.version, s.gen⟩ :: s.busy }) rfl ht rfl
    refine ⟨.push :: .take :: ops, s', ?_, ?_, ?_, ?_⟩
    · intro op hop
      simp only [List.mem_cons] at hop
      rcases hop with rfl | rfl | hop
      · rfl
      · rfl
      · exact o1 op hop
    · exact run_cons.mpr ⟨_, h1, run_cons.mpr ⟨_, h2, o2⟩⟩
    · rw [o3, ← hj]
    · rw [o4]; simp

open Classical in
/-- A frame that is not cut short exists. -/
theorem frame_exists {s : St} (hi : Idle s) (hj : s.jobs = []) (ht : 0 < s.threads) (cam : I3) :
    ∃ order ops s', SortedBy (ground s.height cam) (candidates s.height s.range s.stagger s.registered cam) order ∧ (∀ op ∈ ops, op.quiet = true) ∧
      run s (.request cam order :: ops) = some s' ∧
      s' = { s with stagger := s.stagger + 1, registered := s'.registered, busy := s'.busy } ∧
      s'.busy = (order.map fun p => ⟨p, s.version, s.gen⟩).reverse ++ s.busy := by
  let order := (candidates s.height s.range s.stagger s.registered cam).mergeSort fun a b => decide (dist2 (ground s.height cam) a ≤ dist2 (ground s.height cam) b)
  have hsort : SortedBy (ground s.height cam) (candidates s.height s.range s.stagger s.registered cam) order := by
    refine ⟨List.mergeSort_perm _ _, ?_⟩
    have := List.pairwise_mergeSort (le := fun a b => decide (dist2 (ground s.height cam) a ≤ dist2 (ground s.height cam) b)) (by simp; intros; omega) (by simp; intros; omega)
      (candidates s.height s.range s.stagger s.registered cam)
    exact this.imp (by simp)
  obtain ⟨ops, s', o1, o2, o3, o4⟩ := pushes_exist (s := { s with pending := order, stagger := s.stagger + 1 }) hj ht
  refine ⟨order, ops, s', hsort, o1, run_cons.mpr ⟨_, ?_, o2⟩, ?_, o4⟩
  · simp only [step, hi.1, hi.2, ne_eq, not_true_eq_false, Bool.false_eq_true, or_self, if_false]
    rw [if_pos hsort]
  · rw [o3, ← hi.2]

end FastNoise.Chunks
