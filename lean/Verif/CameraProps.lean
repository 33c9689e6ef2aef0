import Verif.Camera
import Mathlib.Tactic.Linarith
import Mathlib.Tactic.FieldSimp
import Mathlib.Tactic.Ring
/-! # C72: looking around and moving in the mesh preview -/
namespace FastNoise.Camera
open Real

/-- Specification: the axes of a camera at the given heading and elevation (degrees): right is level, the view direction is `-back`. -/
noncomputable def axes (yaw pitch : ℝ) : V3 × V3 × V3 :=
  (⟨cos (deg yaw), 0, -sin (deg yaw)⟩, ⟨sin (deg pitch) * sin (deg yaw), cos (deg pitch), sin (deg pitch) * cos (deg yaw)⟩,
    ⟨sin (deg yaw) * cos (deg pitch), -sin (deg pitch), cos (deg yaw) * cos (deg pitch)⟩)

theorem cos_pitch_pos {p : ℝ} (h : |p| ≤ 89) : 0 < cos (deg p) ∧ cos (deg 89) ≤ cos (deg p) := by
  have hp := pi_pos
  have h' := abs_le.mp h
  have h89 : deg 89 < π / 2 := by unfold deg; linarith
  have hc : cos (deg 89) ≤ cos (deg p) := by
    rw [← cos_abs (deg p)]
    apply cos_le_cos_of_nonneg_of_le_pi (abs_nonneg _)
    · linarith
    · unfold deg
      rw [abs_div, abs_mul, abs_of_pos hp, abs_of_pos (by norm_num : (0 : ℝ) < 180)]
      apply div_le_div_of_nonneg_right _ (by norm_num)
      exact mul_le_mul_of_nonneg_right h hp.le
  refine ⟨lt_of_lt_of_le ?_ hc, hc⟩
  apply cos_pos_of_mem_Ioo
  constructor
  · have : 0 < deg 89 := by unfold deg; positivity
    linarith
  · exact h89

theorem normalized_of_unit {v : V3} (h : v.dot v = 1) : v.normalized = v := by
  unfold V3.normalized
  rw [h]; simp [V3.smul]

/-- `lookAt` of the code gives these axes. -/
theorem lookAt_axes (s : St) (yaw : ℝ) {pitch : ℝ} (h : |pitch| ≤ 89) :
    let r := lookAt s s.pos (s.pos.sub (rotatedZ yaw pitch)) ⟨0, 1, 0⟩
    (r.right, r.up, r.back) = axes yaw pitch ∧ r.pos = s.pos ∧ r.keys = s.keys ∧ r.yaw = s.yaw ∧ r.pitch = s.pitch := by
  have hc := (cos_pitch_pos h).1
  have s1 := sin_sq_add_cos_sq (deg yaw)
  have s2 := sin_sq_add_cos_sq (deg pitch)
  obtain ⟨cy, hcy⟩ : ∃ a, a = cos (deg yaw) := ⟨_, rfl⟩
  obtain ⟨sy, hsy⟩ : ∃ a, a = sin (deg yaw) := ⟨_, rfl⟩
  obtain ⟨cp, hcp⟩ : ∃ a, a = cos (deg pitch) := ⟨_, rfl⟩
  obtain ⟨sp, hsp⟩ : ∃ a, a = sin (deg pitch) := ⟨_, rfl⟩
  rw [← hcy, ← hsy] at s1
  rw [← hcp, ← hsp] at s2
  rw [← hcp] at hc
  have hz : s.pos.sub (s.pos.sub (rotatedZ yaw pitch)) = ⟨sy * cp, -sp, cy * cp⟩ := by
    simp only [V3.sub, rotatedZ, ← hcy, ← hsy, ← hcp, ← hsp]
    ext <;> simp
  have hunit : (⟨sy * cp, -sp, cy * cp⟩ : V3).dot ⟨sy * cp, -sp, cy * cp⟩ = 1 := by
    simp only [V3.dot]
    have : sy * cp * (sy * cp) + -sp * -sp + cy * cp * (cy * cp) = (sy ^ 2 + cy ^ 2) * cp ^ 2 + sp ^ 2 := by ring
    rw [this, s1]; linarith
  have hb : (s.pos.sub (s.pos.sub (rotatedZ yaw pitch))).normalized = ⟨sy * cp, -sp, cy * cp⟩ := by
    rw [hz]; exact normalized_of_unit hunit
  have hr : ((⟨0, 1, 0⟩ : V3).cross ⟨sy * cp, -sp, cy * cp⟩).normalized = ⟨cy, 0, -sy⟩ := by
    have e : (⟨0, 1, 0⟩ : V3).cross ⟨sy * cp, -sp, cy * cp⟩ = ⟨cy * cp, 0, -(sy * cp)⟩ := by
      simp [V3.cross]
    have d : (⟨cy * cp, 0, -(sy * cp)⟩ : V3).dot ⟨cy * cp, 0, -(sy * cp)⟩ = cp ^ 2 := by
      simp only [V3.dot]
      have : cy * cp * (cy * cp) + 0 * 0 + -(sy * cp) * -(sy * cp) = (sy ^ 2 + cy ^ 2) * cp ^ 2 := by ring
      rw [this, s1, one_mul]
    rw [e]
    unfold V3.normalized
    rw [d, sqrt_sq hc.le]
    simp only [V3.smul]
    ext
    · show 1 / cp * (cy * cp) = cy
      field_simp
    · simp
    · show 1 / cp * -(sy * cp) = -sy
      field_simp
  refine ⟨?_, rfl, rfl, rfl, rfl⟩
  simp only [lookAt, hb, hr, axes, ← hcy, ← hsy, ← hcp, ← hsp, Prod.mk.injEq, and_true, true_and]
  simp only [V3.cross]
  ext
  · simp only; ring
  · show cy * cp * cy - sy * cp * -sy = cp
    have : cy * cp * cy - sy * cp * -sy = (sy ^ 2 + cy ^ 2) * cp := by ring
    rw [this, s1, one_mul]
  · simp only; ring

theorem fmod_spec (x : ℝ) : (∃ n : ℤ, fmod360 x = x - 360 * n) ∧ |fmod360 x| < 360 := by
  refine ⟨⟨_, rfl⟩, ?_⟩
  unfold fmod360
  split
  · have h1 := Int.floor_le (x / 360)
    have h2 := Int.lt_floor_add_one (x / 360)
    rw [le_div_iff₀ (by norm_num)] at h1
    rw [div_lt_iff₀ (by norm_num)] at h2
    rw [abs_lt]; constructor <;> linarith
  · have h1 := Int.le_ceil (x / 360)
    have h2 := Int.ceil_lt_add_one (x / 360)
    rw [div_le_iff₀ (by norm_num)] at h1
    rw [← sub_lt_iff_lt_add, lt_div_iff₀ (by norm_num)] at h2
    rw [abs_lt]; constructor <;> linarith

/-- What holds after every event. -/
def Inv (s : St) : Prop := (s.right, s.up, s.back) = axes s.yaw s.pitch ∧ |s.pitch| ≤ 89 ∧ |s.yaw| < 360

theorem clamp_le (x : ℝ) : |min (max x (-89)) 89| ≤ 89 := by
  rw [abs_le]; exact ⟨le_min (le_max_right _ _) (by norm_num), min_le_right _ _⟩

theorem inv_step (s : St) (h : Inv s) (e : Event) : Inv (step s e) := by
  cases e with
  | key t k v =>
    simp only [step, onKey]
    split
    · exact h
    · cases k <;> exact h
  | drag t held dx dy =>
    simp only [step, onDrag]
    split
    · exact h
    · split
      · exact h
      · split
        · exact h
        · obtain ⟨a, -, -, b, c⟩ := lookAt_axes { s with yaw := fmod360 (s.yaw - dx * 0.22), pitch := min (max (s.pitch - dy * 0.22) (-89)) 89 }
            (fmod360 (s.yaw - dx * 0.22)) (clamp_le (s.pitch - dy * 0.22))
          exact ⟨by rw [b, c]; exact a, by rw [c]; exact clamp_le _, by rw [b]; exact (fmod_spec _).2⟩
  | frame dt =>
    simp only [step, onFrame]
    split <;> exact h

theorem inv_init : Inv St.init := by
  refine ⟨?_, by simp [St.init], by simp [St.init]⟩
  simp [St.init, axes, deg]

theorem inv_run (l : List Event) : Inv (run l) := by
  have : ∀ (l : List Event) (s : St), Inv s → Inv (l.foldl step s) := by
    intro l
    induction l with
    | nil => intro s h; exact h
    | cons e l ih => intro s h; exact ih _ (inv_step s h e)
  exact this l _ inv_init

/-- **C72**, view: whatever happened, the camera's axes are perpendicular unit vectors in right-handed order, the horizon is level, the picture is never upside down (and never straight up or down, where `lookAt`
would divide by zero), and the view direction is the one of the angles. -/
theorem C72_view (l : List Event) :
    let s := run l
    s.right.dot s.right = 1 ∧ s.up.dot s.up = 1 ∧ s.back.dot s.back = 1 ∧ s.right.dot s.up = 0 ∧ s.right.dot s.back = 0 ∧ s.up.dot s.back = 0 ∧ s.right.cross s.up = s.back ∧
    s.right.y = 0 ∧ 0 < s.up.y ∧ cos (89 * π / 180) ≤ s.up.y ∧
    s.back = ⟨sin (deg s.yaw) * cos (deg s.pitch), -sin (deg s.pitch), cos (deg s.yaw) * cos (deg s.pitch)⟩ ∧ |s.pitch| ≤ 89 ∧ |s.yaw| < 360 := by
  obtain ⟨h, hp, hy⟩ := inv_run l
  obtain ⟨hc0, hc1⟩ := cos_pitch_pos hp
  simp only [axes, Prod.mk.injEq] at h
  obtain ⟨h1, h2, h3⟩ := h
  simp only
  rw [h1, h2, h3]
  have s1 := sin_sq_add_cos_sq (deg (run l).yaw)
  have s2 := sin_sq_add_cos_sq (deg (run l).pitch)
  generalize cos (deg (run l).yaw) = cy at *
  generalize sin (deg (run l).yaw) = sy at *
  generalize cos (deg (run l).pitch) = cp at *
  generalize sin (deg (run l).pitch) = sp at *
  refine ⟨?_, ?_, ?_, ?_, ?_, ?_, ?_, rfl, hc0, hc1, rfl, hp, hy⟩
  · simp only [V3.dot]; linarith
  · simp only [V3.dot]
    have : sp * sy * (sp * sy) + cp * cp + sp * cy * (sp * cy) = sp ^ 2 * (sy ^ 2 + cy ^ 2) + cp ^ 2 := by ring
    rw [this, s1]; linarith
  · simp only [V3.dot]
    have : sy * cp * (sy * cp) + -sp * -sp + cy * cp * (cy * cp) = cp ^ 2 * (sy ^ 2 + cy ^ 2) + sp ^ 2 := by ring
    rw [this, s1]; linarith
  · simp only [V3.dot]; ring
  · simp only [V3.dot]; ring
  · simp only [V3.dot]
    have : sp * sy * (sy * cp) + cp * -sp + sp * cy * (cy * cp) = sp * cp * ((sy ^ 2 + cy ^ 2) - 1) := by ring
    rw [this, s1]; ring
  · simp only [V3.cross]
    ext
    · simp only; ring
    · show -sy * (sp * sy) - cy * (sp * cy) = -sp
      have : -sy * (sp * sy) - cy * (sp * cy) = -sp * (sy ^ 2 + cy ^ 2) := by ring
      rw [this, s1]; ring
    · simp only; ring

/-- Specification: total horizontal motion of the drags that count (not taken by ImGui, button held, not shorter than the threshold). -/
noncomputable def dragged : List Event → ℝ
  | [] => 0
  | .drag false true dx dy :: l => (if |dx * 0.22 * (dx * 0.22) + dy * 0.22 * (dy * 0.22)| < 1e-5 then 0 else dx) + dragged l
  | _ :: l => dragged l

/-- **C72**, heading: it depends on the total horizontal motion alone, 0.22 degrees per pixel, in whatever portions, directions and with whatever events between; there is no drift from
wrapping at 360 degrees. -/
theorem C72_heading (l : List Event) :
    (run l).right = ⟨cos (deg (0.22 * dragged l)), 0, sin (deg (0.22 * dragged l))⟩ ∧ ∃ n : ℤ, (run l).yaw = -(0.22 * dragged l) + 360 * n := by
  have key : ∀ (l : List Event) (s : St), ∃ n : ℤ, (l.foldl step s).yaw = s.yaw - 0.22 * dragged l + 360 * n := by
    intro l
    induction l with
    | nil => intro s; exact ⟨0, by simp [dragged]⟩
    | cons e l ih =>
      intro s
      obtain ⟨n, hn⟩ := ih (step s e)
      rw [List.foldl_cons, hn]
      cases e with
      | key t k v =>
        refine ⟨n, ?_⟩
        have : (step s (.key t k v)).yaw = s.yaw := by
          simp only [step, onKey]; split
          · rfl
          · cases k <;> rfl
        simp only [this, dragged]
      | frame dt =>
        refine ⟨n, ?_⟩
        have : (step s (.frame dt)).yaw = s.yaw := by simp only [step, onFrame]; split <;> rfl
        simp only [this, dragged]
      | drag t held dx dy =>
        cases t with
        | true => exact ⟨n, by simp [step, onDrag, dragged]⟩
        | false =>
          cases held with
          | false => exact ⟨n, by simp [step, onDrag, dragged]⟩
          | true =>
            simp only [step, onDrag, dragged, Bool.false_eq_true, if_false, Bool.not_true]
            split
            · exact ⟨n, by ring⟩
            · obtain ⟨⟨m, hm⟩, -⟩ := fmod_spec (s.yaw - dx * 0.22)
              refine ⟨n - m, ?_⟩
              simp only [lookAt, hm]
              push_cast; ring
  obtain ⟨n, hn⟩ := key l St.init
  have hy : (run l).yaw = -(0.22 * dragged l) + 360 * n := by
    unfold run; rw [hn]; simp [St.init]
  refine ⟨?_, n, hy⟩
  obtain ⟨h, -, -⟩ := inv_run l
  have h1 : (run l).right = _ := congrArg Prod.fst h
  rw [h1]
  simp only [axes]
  have e : deg (run l).yaw = -deg (0.22 * dragged l) + n * (2 * π) := by rw [hy]; unfold deg; ring
  rw [e, cos_add_int_mul_two_pi, sin_add_int_mul_two_pi, cos_neg, sin_neg, neg_neg]

/-- **C72**, dragging turns the camera about its own position, and changes neither keys nor, beyond the limits of ±89 degrees, anything else; keys and frames do not turn it. -/
theorem C72_drag (l : List Event) (dx dy : ℝ) (h : 1e-5 ≤ |dx * 0.22 * (dx * 0.22) + dy * 0.22 * (dy * 0.22)|) :
    let s := run l
    let s' := run (l ++ [.drag false true dx dy])
    s'.pos = s.pos ∧ s'.keys = s.keys ∧ (|s.pitch - 0.22 * dy| ≤ 89 → s'.pitch = s.pitch - 0.22 * dy) ∧
      (89 ≤ s.pitch - 0.22 * dy → s'.pitch = 89) ∧ (s.pitch - 0.22 * dy ≤ -89 → s'.pitch = -89) := by
  have e : run (l ++ [.drag false true dx dy]) = step (run l) (.drag false true dx dy) := by unfold run; rw [List.foldl_append]; rfl
  simp only [e, step, onDrag, Bool.false_eq_true, if_false, Bool.not_true, if_neg (not_lt.mpr h)]
  simp only [lookAt]
  refine ⟨trivial, trivial, ?_, ?_, ?_⟩
  · intro hp
    have := abs_le.mp hp
    rw [max_eq_left (by linarith), min_eq_left (by linarith)]; ring
  · intro hp
    rw [max_eq_left (by linarith), min_eq_right (by linarith)]
  · intro hp
    rw [max_eq_right (by linarith), min_eq_left (by norm_num)]

/-! ## Moving -/

/-- Specification: the direction asked for by the keys that are down, as multiples of right, up and back. -/
def wish (keys : Key → Bool) : ℝ × ℝ × ℝ :=
  let sign (a b : Bool) : ℝ := if a = b then 0 else if a then 1 else -1
  (sign (keys .d || keys .right) (keys .a || keys .left), sign (keys .e || keys .pgUp) (keys .q || keys .pgDn), sign (keys .s || keys .down) (keys .w || keys .up))

/-- Specification: units per second. -/
def speed (keys : Key → Bool) : ℝ := if keys .lShift || keys .rShift then 320 else 80

theorem velocity_eq (keys : Key → Bool) : (velocity keys).smul 80 = ⟨speed keys * (wish keys).1, speed keys * (wish keys).2.1, speed keys * (wish keys).2.2⟩ := by
  have hs : ∀ a b : Bool, (if a then (-1 : ℝ) else 0) + (if b then 1 else 0) = if b = a then 0 else if b then 1 else -1 := by
    intro a b; cases a <;> cases b <;> simp
  unfold velocity wish speed
  simp only [hs]
  rw [Bool.or_comm (keys .rShift)]
  split
  · simp only [V3.smul]; ext <;> simp only <;> ring
  · simp only [V3.smul]

/-- **C72**, moving: a frame moves the camera along its own axes as the pressed keys say (opposite keys cancel), 80 units per second along each axis, four times as fast with shift, whatever the
direction of view, and does nothing else. -/
theorem C72_move (l : List Event) (dt : ℝ) :
    let s := run l
    let s' := run (l ++ [.frame dt])
    let v := wish s.keys
    let k := speed s.keys * dt
    s'.right = s.right ∧ s'.up = s.up ∧ s'.back = s.back ∧ s'.keys = s.keys ∧ s'.yaw = s.yaw ∧ s'.pitch = s.pitch ∧
    (1 / 20000 ≤ dt → s'.pos = s.pos.add (((s.right.smul (k * v.1)).add (s.up.smul (k * v.2.1))).add (s.back.smul (k * v.2.2)))) := by
  have e : run (l ++ [.frame dt]) = step (run l) (.frame dt) := by unfold run; rw [List.foldl_append]; rfl
  simp only [e, step]
  generalize run l = s
  have hv : (velocity s.keys).smul (dt * 80) = ⟨speed s.keys * dt * (wish s.keys).1, speed s.keys * dt * (wish s.keys).2.1, speed s.keys * dt * (wish s.keys).2.2⟩ := by
    have h := velocity_eq s.keys
    have : (velocity s.keys).smul (dt * 80) = ((velocity s.keys).smul 80).smul dt := by simp only [V3.smul]; ext <;> simp only <;> ring
    rw [this, h]; simp only [V3.smul]; ext <;> simp only <;> ring
  refine ⟨?_, ?_, ?_, ?_, ?_, ?_, ?_⟩
  all_goals try (simp only [onFrame]; split <;> rfl)
  intro hdt
  have hk : 80 * (1 / 20000) ≤ speed s.keys * dt := by
    unfold speed; split <;> nlinarith
  simp only [onFrame, hv]
  generalize speed s.keys * dt = k at *
  have hsign : ∀ a b : Bool, ((if a = b then 0 else if a then 1 else -1 : ℝ) = 0 ∨ (if a = b then 0 else if a then 1 else -1 : ℝ) ^ 2 = 1) := by
    intro a b; cases a <;> cases b <;> simp
  have d1 : (wish s.keys).1 = 0 ∨ (wish s.keys).1 ^ 2 = 1 := hsign _ _
  have d2 : (wish s.keys).2.1 = 0 ∨ (wish s.keys).2.1 ^ 2 = 1 := hsign _ _
  have d3 : (wish s.keys).2.2 = 0 ∨ (wish s.keys).2.2 ^ 2 = 1 := hsign _ _
  generalize (wish s.keys).1 = a at *
  generalize (wish s.keys).2.1 = b at *
  generalize (wish s.keys).2.2 = c at *
  split
  · rename_i hlt
    have hk2 : (1 / 250) ^ 2 ≤ k ^ 2 := pow_le_pow_left₀ (by norm_num) (by linarith) 2
    have hsum : |(⟨k * a, k * b, k * c⟩ : V3).dot ⟨k * a, k * b, k * c⟩| = k ^ 2 * (a ^ 2 + b ^ 2 + c ^ 2) := by
      rw [abs_of_nonneg]
      · simp only [V3.dot]; ring
      · simp only [V3.dot]; nlinarith [sq_nonneg (k * a), sq_nonneg (k * b), sq_nonneg (k * c)]
    rw [hsum] at hlt
    have hz : a = 0 ∧ b = 0 ∧ c = 0 := by
      by_contra hne
      have h1 : 1 ≤ a ^ 2 + b ^ 2 + c ^ 2 := by
        rcases d1 with d1 | d1
        · rcases d2 with d2 | d2
          · rcases d3 with d3 | d3
            · exact absurd ⟨d1, d2, d3⟩ hne
            · nlinarith [sq_nonneg a, sq_nonneg b]
          · nlinarith [sq_nonneg a, sq_nonneg c]
        · nlinarith [sq_nonneg b, sq_nonneg c]
      have : (1 / 250 : ℝ) ^ 2 * 1 ≤ k ^ 2 * (a ^ 2 + b ^ 2 + c ^ 2) := mul_le_mul hk2 h1 (by norm_num) (sq_nonneg k)
      norm_num at this hlt
      linarith
    obtain ⟨rfl, rfl, rfl⟩ := hz
    simp [V3.smul, V3.add]
  · rfl

/-! ## Keys -/

/-- Specification: the last word about a key among the events for which `counts` holds. -/
def lastKey (counts : Bool → Bool) (k : Key) : List Event → Bool → Bool
  | [], b => b
  | .key t (some k') v :: l, b => lastKey counts k l (if k' = k ∧ counts t = true then v else b)
  | _ :: l, b => lastKey counts k l b

/-- **C72**, keys: a key counts as down if the last of its events that ImGui let through was a press. -/
theorem C72_keys (l : List Event) (k : Key) : (run l).keys k = lastKey (fun taken => !taken) k l false := by
  have : ∀ (l : List Event) (s : St), (l.foldl step s).keys k = lastKey (fun taken => !taken) k l (s.keys k) := by
    intro l
    induction l with
    | nil => intro s; rfl
    | cons e l ih =>
      intro s
      rw [List.foldl_cons, ih]
      cases e with
      | key t k' v =>
        cases k' with
        | none =>
          simp only [lastKey]
          congr 1
          simp only [step, onKey]; split <;> rfl
        | some k' =>
          simp only [lastKey]
          congr 1
          simp only [step, onKey]
          cases t with
          | true => simp
          | false =>
            by_cases hk : k' = k
            · subst hk; simp
            · simp [hk, Function.update_of_ne (Ne.symm hk)]
      | drag t held dx dy =>
        simp only [lastKey]
        congr 1
        simp only [step, onDrag]
        split
        · rfl
        · split
          · rfl
          · split <;> rfl
      | frame dt =>
        simp only [lastKey]
        congr 1
        simp only [step, onFrame]; split <;> rfl
  exact this l St.init

/-- **C72**, keys, partial: a key counts as down exactly while it is held, as long as ImGui takes none of its events.  Missing: it may take the release, see `C72_stuck`. -/
theorem C72_held_partial (l : List Event) (k : Key) (h : ∀ t v, .key t (some k) v ∈ l → t = false) : (run l).keys k = lastKey (fun _ => true) k l false := by
  rw [C72_keys]
  have : ∀ (l : List Event) (b : Bool), (∀ t v, .key t (some k) v ∈ l → t = false) → lastKey (fun taken => !taken) k l b = lastKey (fun _ => true) k l b := by
    intro l
    induction l with
    | nil => intro b _; rfl
    | cons e l ih =>
      intro b hl
      have hl' : ∀ t v, .key t (some k) v ∈ l → t = false := fun t v hm => hl t v (List.mem_cons_of_mem _ hm)
      rcases e with ⟨t, _ | k', v⟩ | ⟨t, held, dx, dy⟩ | dt
      · simp only [lastKey]; exact ih b hl'
      · simp only [lastKey]
        rw [ih _ hl']
        congr 1
        by_cases hk : k' = k
        · subst hk
          have := hl t v List.mem_cons_self
          subst this; simp
        · simp [hk]
      · simp only [lastKey]; exact ih b hl'
      · simp only [lastKey]; exact ih b hl'
  exact this l false h

/-- Deviation: W is pressed over the picture and released while a text field has the keyboard; no key is held any more, but the camera goes on moving, in every frame. -/
theorem C72_stuck (n : ℕ) :
    let l : List Event := [.key false (some .w) true, .key true (some .w) false] ++ List.replicate n (.frame (1 / 80))
    (∀ k, lastKey (fun _ => true) k l false = false) ∧ (run l).pos = ⟨20, 20, 20 - n⟩ := by
  constructor
  · intro k
    have : ∀ n b, lastKey (fun _ => true) k (List.replicate n (.frame (1 / 80))) b = b := by
      intro n
      induction n with
      | zero => intro b; rfl
      | succ n ih => intro b; rw [List.replicate_succ]; exact ih b
    simp only [List.cons_append, List.nil_append, lastKey, this]
    by_cases h : Key.w = k <;> simp [h]
  · have key : ∀ (n : ℕ) (s : St), s.keys = Function.update (fun _ => false) .w true → s.right = ⟨1, 0, 0⟩ → s.up = ⟨0, 1, 0⟩ → s.back = ⟨0, 0, 1⟩ →
        ((List.replicate n (.frame (1 / 80))).foldl step s).pos = ⟨s.pos.x, s.pos.y, s.pos.z - n⟩ := by
      intro n
      induction n with
      | zero => intro s _ _ _ _; simp
      | succ n ih =>
        intro s hk hr hu hb
        have hstep : step s (.frame (1 / 80)) = { s with pos := ⟨s.pos.x, s.pos.y, s.pos.z - 1⟩ } := by
          simp only [step, onFrame, velocity, hk, hr, hu, hb]
          simp [V3.smul, V3.dot, V3.add]
          rw [if_neg (by norm_num)]
          simp [sub_eq_add_neg]
        rw [List.replicate_succ, List.foldl_cons, hstep, ih { s with pos := ⟨s.pos.x, s.pos.y, s.pos.z - 1⟩ } hk hr hu hb]
        simp only [V3.mk.injEq, true_and]
        push_cast; ring
    unfold run
    rw [List.foldl_append]
    have := key n ([Event.key false (some .w) true, .key true (some .w) false].foldl step St.init) (by simp [step, onKey, St.init]) (by simp [step, onKey, St.init])
      (by simp [step, onKey, St.init]) (by simp [step, onKey, St.init])
    rw [this]
    simp [step, onKey, St.init]

/-! ## The hypotheses are met -/

/-- Looking right by 100 pixels and up against the stop, then forward for a second. -/
example : (run [.drag false true 100 0, .drag false true 0 (-1000)]).pitch = 89 := by
  have h := (C72_drag [.drag false true 100 0] 0 (-1000) (by norm_num)).2.2.2.1
  have hp : |(run [.drag false true 100 0]).pitch| ≤ 89 := (inv_run _).2.1
  have := abs_le.mp hp
  exact h (by norm_num; linarith)

example : (run [.drag false true 100 0, .drag true true 7 7, .drag false true (-100) 3]).right = ⟨1, 0, 0⟩ := by
  have h := (C72_heading [.drag false true 100 0, .drag true true 7 7, .drag false true (-100) 3]).1
  have d : dragged [.drag false true 100 0, .drag true true 7 7, .drag false true (-100) 3] = 0 := by
    simp only [dragged]; rw [if_neg (by norm_num), if_neg (by norm_num)]; norm_num
  rw [h, d]; simp [deg]

example : (run ([.key false (some .w) true, .key false (some .lShift) true] ++ [.frame 1])).pos = ⟨20, 20, 20 - 320⟩ := by
  have h := (C72_move [.key false (some .w) true, .key false (some .lShift) true] 1).2.2.2.2.2.2 (by norm_num)
  rw [h]
  simp [run, step, onKey, St.init, speed, wish, V3.add, V3.smul]; norm_num

end FastNoise.Camera
