import Verif.TextureLemmas
import Mathlib.Data.EReal.Basic

/-!
# C51, C52: the texture preview and its export

`Exact` (TextureSpec): float operations without rounding.  `Settings.value` is the noise value a pixel has to show, `greyLevel` its grey, `decodeBmp` the file format.
-/

namespace FastNoise.Texture
open FastNoise.Grid FastNoise.Stream

variable {F : Type} [LinearOrder F] [BoundedOrder F]

/-- Helper: the word of a pixel. -/
theorem word_of (v : ℝ) : (UInt32.ofBitVec (Modifiers.rgba8Word (-1) 1 v)).toNat = 0xFF000000 + 0x10101 * (greyLevel v).toNat ∧ 0 ≤ greyLevel v ∧ greyLevel v ≤ 255 := by
  have hg : greyLevel v = Modifiers.grey (-1) 1 v := by
    unfold greyLevel Modifiers.grey
    congr 1
    rw [max_comm]
    ring
  have hr := Modifiers.grey_range (-1) 1 v (by norm_num)
  rw [hg]
  refine ⟨?_, hr⟩
  have e : Num.convertI32 ((max (min v 1) (-1) - (-1)) * (255 / (1 - (-1)))) = BitVec.ofInt 32 (Modifiers.grey (-1) 1 v) := by
    unfold Num.convertI32
    exact if_pos ⟨le_trans (by norm_num) hr.1, lt_of_le_of_lt hr.2 (by norm_num)⟩
  unfold Modifiers.rgba8Word
  simp only [show ¬ (-1 : ℝ) = 1 by norm_num, if_false, e]
  generalize Modifiers.grey (-1) 1 v = n at hr
  obtain ⟨h0, h1⟩ := hr
  interval_cases n <;> rfl

/-- **C51.** The preview shows the noise around its centre: pixel `(x, y)`, counted from the first texel (the lower left corner), is the opaque grey of the noise value at
`center + ((x, y) - size / 2) * scale` (on the torus of the tiled mode), for every width of the SIMD registers and whatever the thread computed before. -/
theorem C51_preview (N : Nat) (hN : 0 < N) {o : TexOps F} {r : ℝ → F} (E : Exact o r) (old : List F) {b : BuildData F} {s : Settings} (H : Holds r b s)
    (hw : 0 < s.width) (hh : 0 < s.height) (hint : s.width * s.height < 2 ^ 31) (ht : s.genType < 4) :
    ∃ words, buildTexture N hN o old b = .ok words ∧ words.length = s.width * s.height ∧ ∀ x y, x < s.width → y < s.height →
      ∃ p, words[y * s.width + x]? = some p ∧ p.toNat = 0xFF000000 + 0x10101 * (greyLevel (s.value x y)).toNat ∧
        0 ≤ greyLevel (s.value x y) ∧ greyLevel (s.value x y) ≤ 255 := by
  have hb := build_words N hN o E.word old b H.1 H.2.1 hw hh hint (by rw [H.2.2.2.2.2.2.2.2.1]; omega)
  refine ⟨_, hb, by simp, fun x y hx hy => ?_⟩
  have hi : y * s.width + x < s.width * s.height := by
    have : (y + 1) * s.width ≤ s.height * s.width := Nat.mul_le_mul_right _ hy
    rw [Nat.succ_mul] at this
    rw [Nat.mul_comm s.width]
    omega
  have e1 : (y * s.width + x) % s.width = x := by rw [Nat.mul_comm, Nat.mul_add_mod, Nat.mod_eq_of_lt hx]
  have e2 : (y * s.width + x) / s.width = y := by rw [Nat.mul_comm, Nat.mul_add_div hw, Nat.div_eq_of_lt hx, Nat.add_zero]
  refine ⟨o.rgba (valueOf o b x y), ?_, ?_⟩
  · rw [List.getElem?_map, List.getElem?_range hi]
    simp only [Option.map_some, e1, e2]
  · rw [value_exact E H ht, E.rgba]
    exact word_of _

/-- **C51.** The same without assuming exact arithmetic: the image is the same, bit for bit, for every width of the SIMD registers and whatever the thread computed
before. -/
theorem C51_preview_same (N N' : Nat) (hN : 0 < N) (hN' : 0 < N') (o : TexOps F) (hword : ∀ w, o.toWord (o.ofWord w) = w) (old old' : List F) (b : BuildData F)
    (hw : 0 < b.sizeX) (hh : 0 < b.sizeY) (hint : b.sizeX * b.sizeY < 2 ^ 31) (ht : 0 ≤ b.genType ∧ b.genType < 4) :
    buildTexture N hN o old b = buildTexture N' hN' o old' b := by
  obtain ⟨X, hX⟩ := Int.eq_ofNat_of_zero_le hw.le
  obtain ⟨Y, hY⟩ := Int.eq_ofNat_of_zero_le hh.le
  rw [hX, hY] at hint
  have hint' : X * Y < 2 ^ 31 := by exact_mod_cast hint
  rw [build_words N hN o hword old b hX hY (by omega) (by omega) hint' ht, build_words N' hN' o hword old' b hX hY (by omega) (by omega) hint' ht]

/-- The settings of an export, over the reals. -/
noncomputable def exportSettings (relative : Bool) (s : Settings) (w h : Nat) : Settings :=
  let rs : ℝ := ((w : ℝ) + h) / ((s.width : ℝ) + s.height)
  if relative then { s with width := w, height := h, scale := s.scale / rs, center := (s.center.1 * rs, s.center.2.1 * rs, s.center.2.2.1 * rs, s.center.2.2.2 * rs) }
  else { s with width := w, height := h }

theorem export_holds {o : TexOps F} {r : ℝ → F} (E : Exact o r) {b : BuildData F} {s : Settings} (H : Holds r b s) (relative : Bool) {w h : Nat} (hw : 0 < w)
    (hs : 0 < s.width) : Holds r (exportData o relative b w h) (exportSettings relative s w h) := by
  obtain ⟨h1, h2, h3, h4, h5, h6, h7, h8, h9, g⟩ := H
  have e1 : o.conv ((w : Int) + h) = r ((w : ℝ) + h) := by rw [E.conv]; push_cast; rfl
  have e2 : o.conv (b.sizeX + b.sizeY) = r ((s.width : ℝ) + s.height) := by rw [E.conv, h1, h2]; push_cast; rfl
  have hw' : (0 : ℝ) < w := by exact_mod_cast hw
  have hs' : (0 : ℝ) < s.width := by exact_mod_cast hs
  have hne : ((s.width : ℝ) + s.height) ≠ 0 := by positivity
  have hne' : ((w : ℝ) + h) / ((s.width : ℝ) + s.height) ≠ 0 := by positivity
  cases relative with
  | false => exact ⟨rfl, rfl, h3, h4, h5, h6, h7, h8, h9, g⟩
  | true =>
    unfold exportData exportSettings
    simp only [if_true]
    rw [e1, e2, E.div _ _ hne, h3, h4, h5, h6, h7, E.div _ _ hne', E.mul, E.mul, E.mul, E.mul]
    exact ⟨rfl, rfl, rfl, rfl, rfl, rfl, rfl, h8, h9, g⟩

/-- **C51.** The exported file is a correct BMP image of the size set in the menu (up to 65535 pixels each way), and each of its pixels is the grey of the noise that
`BuildTexture` computes for the exported settings `s'`: generator, seed and mode of the preview; without relative scaling also its scale and centre; with relative scaling
a scale with which width plus height cover as much as in the preview. -/
theorem C51_export_file (N : Nat) (hN : 0 < N) {o : TexOps F} {r : ℝ → F} (E : Exact o r) (old : List F) {b : BuildData F} {s : Settings} (H : Holds r b s) (relative : Bool)
    {w h : Nat} (hw : 0 < w) (hh : 0 < h) (hw' : w < 65536) (hh' : h < 65536) (hint : (w + 3) * h + 794 < 2 ^ 31) (hsw : 0 < s.width) (ht : s.genType < 4) :
    ∃ (words : List UInt32) (img : Image) (s' : Settings), buildTexture N hN o old (exportData o relative b w h) = .ok words ∧ decodeBmp (bmp w h words) = some img ∧ img.width = w ∧ img.height = h ∧
      (∀ x y, x < w → y < h → ∃ g : UInt8, (g.toNat : ℤ) = greyLevel (s'.value x y) ∧ img.colour x y = some (g, g, g)) ∧
      s'.noise2 = s.noise2 ∧ s'.noise3 = s.noise3 ∧ s'.noise4 = s.noise4 ∧ s'.seed = s.seed ∧ s'.genType = s.genType ∧ s'.width = w ∧ s'.height = h ∧
      (relative = false → s'.scale = s.scale ∧ s'.center = s.center) ∧ (relative = true → ((w : ℝ) + h) * s'.scale = ((s.width : ℝ) + s.height) * s.scale) := by
  have H' := export_holds E H relative hw hsw (h := h)
  have hwid : (exportSettings relative s w h).width = w := by unfold exportSettings; cases relative <;> rfl
  have hhei : (exportSettings relative s w h).height = h := by unfold exportSettings; cases relative <;> rfl
  have htyp : (exportSettings relative s w h).genType = s.genType := by unfold exportSettings; cases relative <;> rfl
  have hle : w * h ≤ (w + 3) * h := Nat.mul_le_mul_right h (by omega)
  obtain ⟨words, h1, h2, h3⟩ := C51_preview N hN E old H' (by rw [hwid]; exact hw) (by rw [hhei]; exact hh) (by rw [hwid, hhei]; omega) (by rw [htyp]; exact ht)
  rw [hwid, hhei] at h2 h3
  obtain ⟨img, i1, i2, i3, i4⟩ := bmp_decode hw hw' hh' (by omega) words h2
  refine ⟨words, img, exportSettings relative s w h, h1, i1, i2, i3, fun x y hx hy => ?_, ?_, ?_, ?_, ?_, htyp, hwid, hhei, ?_, ?_⟩
  · obtain ⟨p, p1, p2, p3, p4⟩ := h3 x y hx hy
    refine ⟨p.toUInt8, ?_, i4 x y p hx hy p1⟩
    rw [UInt32.toNat_toUInt8, p2]
    omega
  iterate 4 (unfold exportSettings; cases relative <;> rfl)
  · rintro rfl; exact ⟨rfl, rfl⟩
  · rintro rfl
    have hw'' : (0 : ℝ) < w := by exact_mod_cast hw
    have hs'' : (0 : ℝ) < s.width := by exact_mod_cast hsw
    have : ((w : ℝ) + h) ≠ 0 := by positivity
    have : ((s.width : ℝ) + s.height) ≠ 0 := by positivity
    unfold exportSettings
    simp only [if_true]
    field_simp

/-! ### An instance of exact arithmetic, for the examples -/

/-- Real arithmetic on the extended reals. -/
noncomputable def eOps : TexOps EReal where
  conv n := ((n : ℝ) : EReal)
  fma a b c := ((a.toReal * b.toReal + c.toReal : ℝ) : EReal)
  add a b := ((a.toReal + b.toReal : ℝ) : EReal)
  mul a b := ((a.toReal * b.toReal : ℝ) : EReal)
  cos a := ((Real.cos a.toReal : ℝ) : EReal)
  sin a := ((Real.sin a.toReal : ℝ) : EReal)
  sub a b := ((a.toReal - b.toReal : ℝ) : EReal)
  div a b := ((a.toReal / b.toReal : ℝ) : EReal)
  rgba v := UInt32.ofBitVec (Modifiers.rgba8Word (-1) 1 v.toReal)
  ofWord w := ((w.toNat : ℝ) : EReal)
  toWord x := UInt32.ofNat ⌊x.toReal⌋₊
  tile n s := ⟨((Tile.mul Tile.pi2Recip n.toNat : ℝ) : EReal), ((Tile.freq Tile.pi2Recip n.toNat s.toReal : ℝ) : EReal)⟩
  zero := 0

theorem eExact : Exact eOps (fun x : ℝ => (x : EReal)) where
  conv n := rfl
  fma a b c := by simp [eOps]
  add a b := by simp [eOps]
  mul a b := by simp [eOps]
  sub a b := by simp [eOps]
  div a b _ := by simp [eOps]
  cos a := by simp [eOps]
  sin a := by simp [eOps]
  tile n s := by simp [eOps]
  rgba v := by simp [eOps]
  word w := by
    show UInt32.ofNat ⌊(((w.toNat : ℝ) : EReal)).toReal⌋₊ = w
    rw [EReal.toReal_coe, Nat.floor_natCast, UInt32.ofNat_toNat]

/-- The settings as extended reals. -/
noncomputable def eData (s : Settings) : BuildData EReal where
  noise := ⟨fun i x y => ((s.noise2 i x.toReal y.toReal : ℝ) : EReal), fun i x y z => ((s.noise3 i x.toReal y.toReal z.toReal : ℝ) : EReal),
    fun i x y z w => ((s.noise4 i x.toReal y.toReal z.toReal w.toReal : ℝ) : EReal)⟩
  sizeX := s.width
  sizeY := s.height
  offX := (s.center.1 : ℝ)
  offY := (s.center.2.1 : ℝ)
  offZ := (s.center.2.2.1 : ℝ)
  offW := (s.center.2.2.2 : ℝ)
  scale := (s.scale : ℝ)
  seed := s.seed
  genType := s.genType

theorem eHolds (s : Settings) : Holds (fun x : ℝ => (x : EReal)) (eData s) s := by
  refine ⟨rfl, rfl, rfl, rfl, rfl, rfl, rfl, rfl, rfl, ?_, ?_, ?_⟩ <;> intros <;> simp [eData]

/-- A preview of 400 × 400 pixels around (1000, 0) of a noise that is 0 for x < 900 and 1 from there on. -/
noncomputable def exSettings : Settings where
  noise2 _ x _ := if x < 900 then -1 else 1
  noise3 _ x _ _ := x
  noise4 _ x _ _ _ := x
  width := 400
  height := 400
  center := (1000, 0, 0, 0)
  scale := 1
  seed := 1337
  genType := 0

/-- Non-vacuity of `C51_preview`: all hypotheses hold of this preview, and its lower left pixel is black, its lower right one white. -/
example : Exact eOps (fun x : ℝ => (x : EReal)) ∧ Holds (fun x : ℝ => (x : EReal)) (eData exSettings) exSettings ∧ exSettings.width * exSettings.height < 2 ^ 31 ∧
    greyLevel (exSettings.value 0 0) = 0 ∧ greyLevel (exSettings.value 399 0) = 255 := by
  have h0 := Num.roundEven_int 0
  have h1 := Num.roundEven_int 255
  refine ⟨eExact, eHolds _, by norm_num [exSettings], ?_, ?_⟩
  · have : exSettings.value 0 0 = -1 := by simp [Settings.value, exSettings, place]; norm_num
    rw [this]
    unfold greyLevel
    norm_num
    exact_mod_cast h0
  · have : exSettings.value 399 0 = 1 := by simp [Settings.value, exSettings, place]; norm_num
    rw [this]
    unfold greyLevel
    norm_num
    exact_mod_cast h1

/-- The value of a pixel under relative scaling. -/
theorem same_value (s : Settings) (k : Nat) (hk : 0 < k) (hw : 0 < s.width) (hh : 0 < s.height)
    (hc : s.center = (0, 0, 0, 0) ∨ k = 1 ∨ s.genType = 1) (x y : Nat) :
    (exportSettings true s (k * s.width) (k * s.height)).value (k * x) (k * y) = s.value x y := by
  have hk' : (0 : ℝ) < k := by exact_mod_cast hk
  have hw' : (0 : ℝ) < s.width := by exact_mod_cast hw
  have hh' : (0 : ℝ) < s.height := by exact_mod_cast hh
  have hrs : (((k * s.width : Nat) : ℝ) + ((k * s.height : Nat) : ℝ)) / ((s.width : ℝ) + s.height) = k := by
    push_cast
    field_simp
  have htile : ∀ n i : Nat, 0 < n → Tile.point Tile.pi2Recip (k * n) (s.scale / k) (k * i) = Tile.point Tile.pi2Recip n s.scale i := by
    intro n i hn
    have hn' : (0 : ℝ) < n := by exact_mod_cast hn
    have hp : Tile.pi2Recip ≠ 0 := by unfold Tile.pi2Recip; norm_num
    have e1 : ((k * i : Nat) : ℝ) * Tile.mul Tile.pi2Recip (k * n) = i * Tile.mul Tile.pi2Recip n := by
      unfold Tile.mul Tile.sizePi
      push_cast
      field_simp
    have e2 : Tile.freq Tile.pi2Recip (k * n) (s.scale / k) = Tile.freq Tile.pi2Recip n s.scale := by
      unfold Tile.freq Tile.sizePi
      push_cast
      field_simp
    unfold Tile.point
    rw [e1, e2]
  have hplace : ∀ (c : ℝ) (n i : Nat), (c = 0 ∨ k = 1) → place (c * k) (s.scale / k) (k * n) (k * i) = place c s.scale n i := by
    intro c n i hc
    unfold place
    rcases hc with rfl | rfl
    · push_cast; field_simp; ring
    · simp
  unfold exportSettings Settings.value
  simp only [hrs, if_true, htile _ _ hw, htile _ _ hh]
  by_cases h1 : s.genType = 1
  · simp [h1]
  · have hcc : s.center = (0, 0, 0, 0) ∨ k = 1 := by tauto
    have hx : s.center.1 = 0 ∨ k = 1 := hcc.imp_left fun h => by rw [h]
    have hy : s.center.2.1 = 0 ∨ k = 1 := hcc.imp_left fun h => by rw [h]
    have hz : s.center.2.2.1 * (k : ℝ) = s.center.2.2.1 := by rcases hcc with h | rfl <;> [rw [h]; skip] <;> simp
    have hww : s.center.2.2.2 * (k : ℝ) = s.center.2.2.2 := by rcases hcc with h | rfl <;> [rw [h]; skip] <;> simp
    rw [hplace _ _ _ hx, hplace _ _ _ hy, hz, hww]

/-- The positions and colours behind `C51_export_moved`. -/
theorem moved_values :
    (∀ x x' : Nat, x < 400 → place exSettings.center.1 exSettings.scale 400 x <
      place (exportSettings true exSettings 800 800).center.1 (exportSettings true exSettings 800 800).scale 800 x') ∧
    ∀ x y, x < 100 → greyLevel ((exportSettings true exSettings 800 800).value (2 * x) (2 * y)) = 255 ∧ greyLevel (exSettings.value x y) = 0 := by
  have hscale : (exportSettings true exSettings 800 800).scale = 1 / 2 := by simp [exportSettings, exSettings]; norm_num
  have hcenter : (exportSettings true exSettings 800 800).center.1 = 2000 := by simp [exportSettings, exSettings]; norm_num
  refine ⟨fun x x' hx => ?_, fun x y hx => ⟨?_, ?_⟩⟩
  · rw [hscale, hcenter]
    unfold place
    have h1 : (x : ℝ) < 400 := by exact_mod_cast hx
    have h2 : (0 : ℝ) ≤ x' := Nat.cast_nonneg _
    simp only [exSettings]
    push_cast
    linarith
  · have : (exportSettings true exSettings 800 800).value (2 * x) (2 * y) = 1 := by
      have h2 : (0 : ℝ) ≤ x := Nat.cast_nonneg _
      unfold Settings.value
      rw [hscale, hcenter]
      simp only [exportSettings, exSettings, if_true, place]
      rw [if_neg]
      push_cast
      linarith
    rw [this]
    unfold greyLevel
    norm_num
    exact_mod_cast Num.roundEven_int 255
  · have : exSettings.value x y = -1 := by
      have h1 : (x : ℝ) < 100 := by exact_mod_cast hx
      unfold Settings.value
      simp only [exSettings, if_true, place]
      rw [if_pos]
      push_cast
      linarith
    rw [this]
    unfold greyLevel
    norm_num
    exact_mod_cast Num.roundEven_int 0

/-- **C51.** With relative scaling an export that is `k` times as large shows the area of the preview: its pixel `(k x, k y)` is the preview's pixel `(x, y)`.
(Partial: only if the centre of the preview is the origin, or `k = 1`, or in the tiled mode; see `C51_export_moved`.) -/
theorem C51_same_area_partial (N : Nat) (hN : 0 < N) {o : TexOps F} {r : ℝ → F} (E : Exact o r) (old old' : List F) {b : BuildData F} {s : Settings} (H : Holds r b s)
    (k : Nat) (hk : 0 < k) (hw : 0 < s.width) (hh : 0 < s.height) (hint : (k * s.width) * (k * s.height) < 2 ^ 31) (ht : s.genType < 4)
    (hc : s.center = (0, 0, 0, 0) ∨ k = 1 ∨ s.genType = 1) :
    ∃ preview exported, buildTexture N hN o old b = .ok preview ∧
      buildTexture N hN o old' (exportData o true b ((k * s.width : Nat) : Int) ((k * s.height : Nat) : Int)) = .ok exported ∧
      ∀ x y, x < s.width → y < s.height → ∃ p, preview[y * s.width + x]? = some p ∧ exported[(k * y) * (k * s.width) + k * x]? = some p := by
  have hint1 : s.width * s.height < 2 ^ 31 := by
    refine lt_of_le_of_lt ?_ hint
    exact Nat.mul_le_mul (Nat.le_mul_of_pos_left _ hk) (Nat.le_mul_of_pos_left _ hk)
  have H' := export_holds E H true (w := k * s.width) (h := k * s.height) (Nat.mul_pos hk hw) hw
  have f1 : (exportSettings true s (k * s.width) (k * s.height)).width = k * s.width := rfl
  have f2 : (exportSettings true s (k * s.width) (k * s.height)).height = k * s.height := rfl
  have f3 : (exportSettings true s (k * s.width) (k * s.height)).genType = s.genType := rfl
  obtain ⟨p, hp, _, h⟩ := C51_preview N hN E old H hw hh hint1 ht
  obtain ⟨q, hq, _, h'⟩ := C51_preview N hN E old' H' (by rw [f1]; positivity) (by rw [f2]; positivity) (by rw [f1, f2]; exact hint) (by rw [f3]; exact ht)
  refine ⟨p, q, hp, hq, fun x y hx hy => ?_⟩
  obtain ⟨v, hv, hvn, _⟩ := h x y hx hy
  obtain ⟨v', hv', hvn', _⟩ := h' (k * x) (k * y) (by rw [f1]; exact Nat.mul_lt_mul_of_pos_left hx hk) (by rw [f2]; exact Nat.mul_lt_mul_of_pos_left hy hk)
  rw [same_value s k hk hw hh hc x y] at hvn'
  refine ⟨v, hv, ?_⟩
  rw [f1] at hv'
  rw [hv', UInt32.toNat_inj.mp (hvn'.trans hvn.symm)]

/-- **C51.** The defect behind the word partial: "Scale export to match preview area" multiplies the centre, so a preview of 400 × 400 pixels around (1000, 0), exported
with 800 × 800 pixels, gives a picture of another area: in the left quarter of the picture every pixel is white where the preview is black.  Indeed no point of the noise
that the file shows is in the preview (`moved_values`). -/
theorem C51_export_moved (N : Nat) (hN : 0 < N) {o : TexOps F} {r : ℝ → F} (E : Exact o r) (old old' : List F) {b : BuildData F} (H : Holds r b exSettings) :
    ∃ preview exported, buildTexture N hN o old b = .ok preview ∧ buildTexture N hN o old' (exportData o true b (800 : Nat) (800 : Nat)) = .ok exported ∧
      ∀ x y, x < 100 → y < 400 → preview[y * 400 + x]? = some 0xFF000000 ∧ exported[(2 * y) * 800 + 2 * x]? = some 0xFFFFFFFF := by
  have H' := export_holds E H true (w := 800) (h := 800) (by norm_num) (by norm_num [exSettings])
  have f1 : (exportSettings true exSettings 800 800).width = 800 := rfl
  have f2 : (exportSettings true exSettings 800 800).height = 800 := rfl
  have f3 : (exportSettings true exSettings 800 800).genType = 0 := rfl
  obtain ⟨p, hp, _, h⟩ := C51_preview N hN E old H (by norm_num [exSettings]) (by norm_num [exSettings]) (by norm_num [exSettings]) (by norm_num [exSettings])
  obtain ⟨q, hq, _, h'⟩ := C51_preview N hN E old' H' (by rw [f1]; norm_num) (by rw [f2]; norm_num) (by rw [f1, f2]; norm_num) (by rw [f3]; norm_num)
  refine ⟨p, q, hp, hq, fun x y hx hy => ?_⟩
  obtain ⟨g1, g0⟩ := moved_values.2 x y hx
  obtain ⟨v, hv, hvn, _⟩ := h x y (by show x < 400; omega) hy
  obtain ⟨v', hv', hvn', _⟩ := h' (2 * x) (2 * y) (by rw [f1]; omega) (by rw [f2]; omega)
  rw [g0] at hvn
  rw [g1] at hvn'
  rw [f1] at hv'
  refine ⟨hv.trans ?_, hv'.trans ?_⟩
  · rw [Option.some.injEq]; exact UInt32.toNat_inj.mp (hvn.trans (by decide))
  · rw [Option.some.injEq]; exact UInt32.toNat_inj.mp (hvn'.trans (by decide))

/-- Non-vacuity of `C51_same_area_partial` (a preview around the origin) and of `C51_export_moved`. -/
example : (∃ preview exported, buildTexture 8 (by norm_num) eOps [] (eData { exSettings with center := (0, 0, 0, 0) }) = .ok preview ∧
      buildTexture 8 (by norm_num) eOps [] (exportData eOps true (eData { exSettings with center := (0, 0, 0, 0) }) ((2 * 400 : Nat) : Int) ((2 * 400 : Nat) : Int)) = .ok exported ∧
      ∀ x y, x < 400 → y < 400 → ∃ p, preview[y * 400 + x]? = some p ∧ exported[(2 * y) * (2 * 400) + 2 * x]? = some p) ∧
    ∃ preview, buildTexture 8 (by norm_num) eOps [] (eData exSettings) = .ok preview ∧ preview[0]? = some 0xFF000000 := by
  refine ⟨C51_same_area_partial 8 (by norm_num) eExact [] [] (eHolds { exSettings with center := (0, 0, 0, 0) }) 2 (by norm_num) (by norm_num [exSettings])
    (by norm_num [exSettings]) (by norm_num [exSettings]) (by norm_num [exSettings]) (Or.inl rfl), ?_⟩
  obtain ⟨p, _, hp, _, h⟩ := C51_export_moved 8 (by norm_num) eExact [] [] (eHolds exSettings)
  exact ⟨p, hp, (h 0 0 (by norm_num) (by norm_num)).1⟩

/-- The settings after dragging with the left button. -/
noncomputable def moved (s : Settings) (dx dy : Int) : Settings := { s with center := (s.center.1 - dx * s.scale, s.center.2.1 + dy * s.scale, s.center.2.2.1, s.center.2.2.2) }

theorem drag_holds {o : TexOps F} {r : ℝ → F} (E : Exact o r) {b : BuildData F} {s : Settings} (H : Holds r b s) (ht : s.genType ≠ 1) (dx dy : Int) :
    Holds r (dragLeft o (o.conv dx) (o.conv dy) b) (moved s dx dy) := by
  obtain ⟨h1, h2, h3, h4, h5, h6, h7, h8, h9, g⟩ := H
  unfold dragLeft
  rw [if_pos (by rw [h9]; exact_mod_cast ht)]
  refine ⟨h1, h2, ?_, ?_, h5, h6, h7, h8, h9, g⟩
  · show o.sub b.offX (o.mul (o.conv dx) b.scale) = _
    rw [h3, h7, E.conv, E.mul, E.sub]; rfl
  · show o.add b.offY (o.mul (o.conv dy) b.scale) = _
    rw [h4, h7, E.conv, E.mul, E.add]; rfl

/-- **C51.** Dragging the picture moves it with the mouse: after the left button was dragged by `dx` pixels to the right and `dy` pixels down, each pixel shows what the pixel
`dx` to its left and `dy` above it showed before.  In the tiled mode dragging does nothing. -/
theorem C51_drag (N : Nat) (hN : 0 < N) {o : TexOps F} {r : ℝ → F} (E : Exact o r) (old old' : List F) {b : BuildData F} {s : Settings} (H : Holds r b s)
    (hw : 0 < s.width) (hh : 0 < s.height) (hint : s.width * s.height < 2 ^ 31) (ht : s.genType < 4) (dx dy : Int) :
    ∃ before after, buildTexture N hN o old b = .ok before ∧ buildTexture N hN o old' (dragLeft o (o.conv dx) (o.conv dy) b) = .ok after ∧
      (s.genType ≠ 1 → ∀ x y x' y' : Nat, x < s.width → y < s.height → x' < s.width → y' < s.height → (x' : Int) = x + dx → (y' : Int) = y - dy →
        ∃ p, before[y * s.width + x]? = some p ∧ after[y' * s.width + x']? = some p) ∧
      (s.genType = 1 → after = before) := by
  obtain ⟨p, hp, _, h⟩ := C51_preview N hN E old H hw hh hint ht
  by_cases h1 : s.genType = 1
  · obtain ⟨q, hq, _, _⟩ := C51_preview N hN E old' H hw hh hint ht
    have hb : dragLeft o (o.conv dx) (o.conv dy) b = b := by
      unfold dragLeft
      rw [if_neg (by rw [H.2.2.2.2.2.2.2.2.1]; simp [h1])]
    rw [hb]
    have hsame := C51_preview_same N N hN hN o E.word old old' b (by rw [H.1]; exact_mod_cast hw) (by rw [H.2.1]; exact_mod_cast hh)
      (by rw [H.1, H.2.1]; exact_mod_cast hint) (by rw [H.2.2.2.2.2.2.2.2.1]; omega)
    refine ⟨p, p, hp, hsame ▸ hp, fun h => absurd h1 h, fun _ => rfl⟩
  · obtain ⟨q, hq, _, h'⟩ := C51_preview N hN E old' (drag_holds E H h1 dx dy) hw hh hint ht
    refine ⟨p, q, hp, hq, fun _ x y x' y' hx hy hx' hy' ex ey => ?_, fun h => absurd h h1⟩
    obtain ⟨v, hv, hvn, _⟩ := h x y hx hy
    obtain ⟨v', hv', hvn', _⟩ := h' x' y' hx' hy'
    have ex' : (x' : ℝ) = x + dx := by exact_mod_cast ex
    have ey' : (y' : ℝ) = y - dy := by exact_mod_cast ey
    have hval : (moved s dx dy).value x' y' = s.value x y := by
      have e1 : place (s.center.1 - dx * s.scale) s.scale s.width x' = place s.center.1 s.scale s.width x := by unfold place; rw [ex']; ring
      have e2 : place (s.center.2.1 + dy * s.scale) s.scale s.height y' = place s.center.2.1 s.scale s.height y := by unfold place; rw [ey']; ring
      unfold Settings.value moved
      simp only [e1, e2, h1, if_false]
    rw [hval] at hvn'
    refine ⟨v, hv, ?_⟩
    have : (moved s dx dy).width = s.width := rfl
    rw [this] at hv'
    rw [hv', UInt32.toNat_inj.mp (hvn'.trans hvn.symm)]

/-- **C51.** Changing the scale keeps the middle of the picture: with an even width and height, the pixel in the middle shows the same at any two scales. -/
theorem C51_zoom (N : Nat) (hN : 0 < N) {o : TexOps F} {r : ℝ → F} (E : Exact o r) (old old' : List F) {b : BuildData F} {s : Settings} (H : Holds r b s) (scale : ℝ)
    {m n : Nat} (hw : s.width = 2 * m) (hh : s.height = 2 * n) (hm : 0 < m) (hn : 0 < n) (hint : s.width * s.height < 2 ^ 31) (ht : s.genType < 4) (h1 : s.genType ≠ 1) :
    ∃ before after p, buildTexture N hN o old b = .ok before ∧ buildTexture N hN o old' { b with scale := r scale } = .ok after ∧
      before[n * s.width + m]? = some p ∧ after[n * s.width + m]? = some p := by
  have H' : Holds r { b with scale := r scale } { s with scale := scale } := by
    obtain ⟨h1, h2, h3, h4, h5, h6, h7, h8, h9, g⟩ := H
    exact ⟨h1, h2, h3, h4, h5, h6, rfl, h8, h9, g⟩
  obtain ⟨p, hp, _, h⟩ := C51_preview N hN E old H (by omega) (by omega) hint ht
  obtain ⟨q, hq, _, h'⟩ := C51_preview N hN E old' H' (by show 0 < s.width; omega) (by show 0 < s.height; omega) hint ht
  obtain ⟨v, hv, hvn, _⟩ := h m n (by omega) (by omega)
  obtain ⟨v', hv', hvn', _⟩ := h' m n (by show m < s.width; omega) (by show n < s.height; omega)
  have mid : ∀ (c t : ℝ) (k : Nat), place c t (2 * k) k = c := by
    intro c t k
    unfold place
    push_cast
    ring
  have hval : Settings.value { s with scale := scale } m n = s.value m n := by
    unfold Settings.value
    simp only [hw, hh, mid, h1, if_false]
  rw [hval] at hvn'
  exact ⟨p, q, v, hp, hq, hv, by rw [UInt32.toNat_inj.mp (hvn.trans hvn'.symm)]; exact hv'⟩

/-- **C51.** The right button moves through the other axes, and only in the modes that have them: in the 3D mode dragging by `dx` pixels changes z by `-dx` steps, in the 4D mode
also w by `dy` steps; the position in the picture stays. -/
theorem C51_drag_right {o : TexOps F} {r : ℝ → F} (E : Exact o r) {b : BuildData F} {s : Settings} (H : Holds r b s) (dx dy : Int) :
    Holds r (dragRight o (o.conv dx) (o.conv dy) b)
      { s with center := (s.center.1, s.center.2.1, if s.genType = 2 ∨ s.genType = 3 then s.center.2.2.1 - dx * s.scale else s.center.2.2.1,
                          if s.genType = 3 then s.center.2.2.2 + dy * s.scale else s.center.2.2.2) } := by
  obtain ⟨h1, h2, h3, h4, h5, h6, h7, h8, h9, g⟩ := H
  have ez : o.sub b.offZ (o.mul (o.conv dx) b.scale) = r (s.center.2.2.1 - dx * s.scale) := by rw [h5, h7, E.conv, E.mul, E.sub]
  have ew : o.add b.offW (o.mul (o.conv dy) b.scale) = r (s.center.2.2.2 + dy * s.scale) := by rw [h6, h7, E.conv, E.mul, E.add]
  unfold dragRight
  by_cases c3 : s.genType = 3
  · have d3 : b.genType = 3 := by rw [h9, c3]; rfl
    simp only [c3, d3, or_true, if_true]
    exact ⟨h1, h2, h3, h4, ez, ew, h7, h8, by simp [c3], g⟩
  · by_cases c2 : s.genType = 2
    · have d2 : b.genType = 2 := by rw [h9, c2]; rfl
      simp only [c2, d2, true_or, if_true]
      norm_num
      exact ⟨h1, h2, h3, h4, ez, h6, h7, h8, by simp [d2, c2], g⟩
    · have d3 : b.genType ≠ 3 := by rw [h9]; exact_mod_cast c3
      have d2 : b.genType ≠ 2 := by rw [h9]; exact_mod_cast c2
      simp only [c2, c3, d2, d3, or_false, if_false]
      exact ⟨h1, h2, h3, h4, h5, h6, h7, h8, h9, g⟩

/-- Non-vacuity of `C51_drag`, `C51_zoom` and `C51_drag_right`: the example picture is dragged by 10 pixels to the left and 4 up, and zoomed. -/
example : (∃ before after p, buildTexture 8 (by norm_num) eOps [] (eData exSettings) = .ok before ∧
      buildTexture 8 (by norm_num) eOps [] (dragLeft eOps (eOps.conv (-10)) (eOps.conv (-4)) (eData exSettings)) = .ok after ∧
      before[0 * 400 + 15]? = some p ∧ after[4 * 400 + 5]? = some p) ∧
    ∃ before after p, buildTexture 8 (by norm_num) eOps [] (eData exSettings) = .ok before ∧
      buildTexture 8 (by norm_num) eOps [] { eData exSettings with scale := ((3 : ℝ) : EReal) } = .ok after ∧ before[200 * 400 + 200]? = some p ∧ after[200 * 400 + 200]? = some p := by
  refine ⟨?_, C51_zoom 8 (by norm_num) eExact [] [] (eHolds exSettings) 3 (m := 200) (n := 200) rfl rfl (by norm_num) (by norm_num) (by norm_num [exSettings])
    (by norm_num [exSettings]) (by norm_num [exSettings])⟩
  obtain ⟨p, q, hp, hq, h, _⟩ := C51_drag 8 (by norm_num) eExact [] [] (eHolds exSettings) (by norm_num [exSettings]) (by norm_num [exSettings]) (by norm_num [exSettings])
    (by norm_num [exSettings]) (-10) (-4)
  obtain ⟨v, h1, h2⟩ := h (by norm_num [exSettings]) 15 0 5 4 (by norm_num [exSettings]) (by norm_num [exSettings]) (by norm_num [exSettings]) (by norm_num [exSettings])
    (by norm_num) (by norm_num)
  exact ⟨p, q, v, hp, hq, h1, h2⟩

/-- **C51.** The size limit of `C51_export_file` is needed: a width of 65540, which can be typed into the menu, is cut to 4 in the header of the file. -/
theorem C51_wide_header (data : List UInt32) (hd : data.length = 65540 * 4) : ∃ img, decodeBmp (bmp 65540 4 data) = some img ∧ img.width = 4 := by
  have hp := padding_eq 65540
  obtain ⟨hlen, _⟩ := bmp_pixels (w := 65540) (h := 4) (by norm_num) data hd
  obtain ⟨H, hH, hH26, n1, n2, n3, n4, n5, n6, n7, n8⟩ := bmp_numbers (w := 65540) (h := 4) (pad := 0) hp (by norm_num) data rfl
  have hblen : (bmp (65540 : Nat) (4 : Nat) data).length = 794 + (65540 + 0) * 4 := by
    rw [hH, List.length_append, List.length_append, hH26, colourMap_length, hlen]
  have goal : ∃ img, decodeBmp (bmp (65540 : Nat) (4 : Nat) data) = some img ∧ img.width = 4 := by
    unfold decodeBmp
    simp only [n1, n2, n3, n4, n5, n6, n7, n8, Option.bind_eq_bind, Option.bind_some, hblen]
    norm_num
  exact goal

/-- **C51.** A size of zero, which can be typed into the menu too, makes the export thread run forever. -/
theorem C51_zero_size_hangs (N : Nat) (hN : 0 < N) (o : TexOps F) (old : List F) (b : BuildData F) (h0 : b.sizeX = 0) (ht : b.genType = 0) :
    buildTexture N hN o old b = .error .infiniteLoop := by
  unfold buildTexture
  simp only [ht, if_true, h0]
  unfold genUniformGrid2D imul axisReset toSize
  simp only [zero_mul]
  norm_num
  rw [resetLoop, if_pos (by simpa using hN), if_pos (by simp)]
  rfl

/-- Non-vacuity of `C51_export_file` and `C51_preview_same`: the example preview, exported with 10 × 7 pixels. -/
example : ∃ words img, buildTexture 8 (by norm_num) eOps [] (exportData eOps true (eData exSettings) (10 : Nat) (7 : Nat)) = .ok words ∧
    decodeBmp (bmp (10 : Nat) (7 : Nat) words) = some img ∧ img.width = 10 ∧ img.height = 7 := by
  obtain ⟨words, img, _, h1, h2, h3, h4, _⟩ := C51_export_file 8 (by norm_num) eExact [] (eHolds exSettings) true (w := 10) (h := 7) (by norm_num) (by norm_num)
    (by norm_num) (by norm_num) (by norm_num) (by norm_num [exSettings]) (by norm_num [exSettings])
  exact ⟨words, img, h1, h2, h3, h4⟩

/-! ## C52: the file an export is written to -/

/-- **C52.** An export never changes an existing file (up to 1023 taken names), and if it does not fail it puts exactly the new image into a new file whose name begins
with the chosen name and ends with ".bmp".  (Partial: needs a free name among the first 1023 tried ones and names the file system accepts; see `C52_overwrites`,
`C52_long_name_crash`.) -/
theorem C52_no_overwrite_partial (nameOk canOpen : Name → Bool) (custom node : Name) (content : List UInt8) (d : Disk) {m : Nat} (hm : m < 1023)
    (hfree : d.files (tried custom node m) = none) (hok : ∀ j ≤ m, nameOk (tried custom node j) = true) :
    let d' := doExport nameOk canOpen custom node content d
    (∀ n c, d.files n = some c → d'.files n = some c) ∧ d'.crashed = d.crashed ∧
      (d.exporting = false → d.crashed = false → d'.exporting = false →
        ∃ k ≤ m, d.files (tried custom node k) = none ∧ d'.files (tried custom node k) = some content ∧ ∀ n, n ≠ tried custom node k → d'.files n = d.files n) := by
  intro d'
  show _ ∧ _ ∧ _
  by_cases hb : (d.exporting || d.crashed) = true
  · have hd : d' = d := by show doExport _ _ _ _ _ _ = _; unfold doExport; rw [if_pos hb]
    rw [hd]
    refine ⟨fun _ _ h => h, rfl, fun h1 h2 _ => ?_⟩
    rw [h1, h2] at hb
    cases hb
  · have hstat : ∀ j ≤ m, (fun n => if nameOk n then (if (d.files n).isSome then Stat.present else Stat.absent) else Stat.throws) (tried custom node j) ≠ .throws := by
      intro j hj
      simp only [hok j hj, if_true]
      split <;> simp
    rcases choose_cases (fun n => if nameOk n then (if (d.files n).isSome then Stat.present else Stat.absent) else Stat.throws) custom node with
      ⟨k, hk, hbefore, habs, hrun⟩ | ⟨k, hk, hbefore, hthrow, _⟩ | ⟨hall, _⟩
    · have hkm : k ≤ m := by
        by_contra hcon
        have := hbefore m (by omega)
        simp [hok m (le_refl _), hfree] at this
      have hnone : d.files (tried custom node k) = none := by
        simp only [hok k hkm, if_true] at habs
        by_contra hcon
        rw [if_pos (Option.isSome_iff_ne_none.mpr hcon)] at habs
        cases habs
      by_cases hopen : canOpen (tried custom node k) = true
      · have hd : d' = { d with files := fun n => if n = tried custom node k then some content else d.files n } := by
          show doExport _ _ _ _ _ _ = _
          unfold doExport
          rw [if_neg hb, hrun]
          simp only [hopen, if_true]
        rw [hd]
        refine ⟨fun n c h => ?_, rfl, fun _ _ _ => ⟨k, hkm, hnone, by simp, fun n hn => by simp [hn]⟩⟩
        simp only
        rw [if_neg]
        · exact h
        · rintro rfl; rw [hnone] at h; cases h
      · have hd : d' = { d with exporting := true } := by
          show doExport _ _ _ _ _ _ = _
          unfold doExport
          rw [if_neg hb, hrun]
          simp only [hopen]
          rfl
        rw [hd]
        exact ⟨fun _ _ h => h, rfl, fun _ _ h => by cases h⟩
    · exfalso
      by_cases hkm : k ≤ m
      · exact hstat k hkm hthrow
      · have := hbefore m (by omega)
        simp [hok m (le_refl _), hfree] at this
    · exfalso
      have := hall m hm
      simp [hok m (le_refl _), hfree] at this

/-- **C52.** Exports in a row: if none of the names is taken and all can be used, up to 1023 exports end up in as many different files, each with its own image,
the first in `name.bmp`, and nothing else on the disk changes. -/
theorem C52_exports_in_a_row (nameOk canOpen : Name → Bool) (custom node : Name) (content : Nat → List UInt8) (d : Disk) {n : Nat} (hn : n ≤ 1023)
    (h0 : d.exporting = false) (h1 : d.crashed = false) (hfree : ∀ j < n, d.files (tried custom node j) = none)
    (hok : ∀ j < n, nameOk (tried custom node j) = true ∧ canOpen (tried custom node j) = true) :
    let d' := exports nameOk canOpen custom node content n d
    d'.exporting = false ∧ d'.crashed = false ∧ (∀ j < n, d'.files (tried custom node j) = some (content j)) ∧
      (∀ m, (∀ j < n, m ≠ tried custom node j) → d'.files m = d.files m) ∧ ∀ i j, i ≠ j → tried custom node i ≠ tried custom node j := by
  induction n with
  | zero => exact ⟨h0, h1, fun j hj => by omega, fun _ _ => rfl, fun i j hij h => hij (tried_inj _ _ h)⟩
  | succ n ih =>
    obtain ⟨i1, i2, i3, i4, i5⟩ := ih (by omega) (fun j hj => hfree j (by omega)) (fun j hj => hok j (by omega))
    simp only [exports]
    generalize hd : exports nameOk canOpen custom node content n d = e at i1 i2 i3 i4
    have hnone : e.files (tried custom node n) = none := by
      rw [i4 _ fun j hj h => by have := tried_inj _ _ h; omega]
      exact hfree n (by omega)
    have hrun : chooseName (fun m => if nameOk m then (if (e.files m).isSome then Stat.present else Stat.absent) else Stat.throws) 1 (firstName custom node) =
        some (tried custom node n) := by
      rw [choose_skip _ _ _ n (by omega) fun j hj => by simp [(hok j (by omega)).1, i3 j hj], choose_step _ _ _ _ (by omega)]
      simp [(hok n (by omega)).1, hnone]
    have hd' : doExport nameOk canOpen custom node (content n) e = { e with files := fun m => if m = tried custom node n then some (content n) else e.files m } := by
      unfold doExport
      rw [if_neg (by rw [i1, i2]; decide), hrun]
      simp only [(hok n (by omega)).2, if_true]
    rw [hd']
    refine ⟨i1, i2, fun j hj => ?_, fun m hm => ?_, i5⟩
    · simp only
      rcases Nat.lt_or_ge j n with h | h
      · rw [if_neg (i5 j n (by omega))]; exact i3 j h
      · have : j = n := by omega
        subst this; rw [if_pos rfl]
    · simp only
      rw [if_neg (hm n (by omega))]
      exact i4 m fun j hj => hm j (by omega)

/-- Non-vacuity: three exports of a Simplex node on an empty disk. -/
example : (exports (fun _ => true) (fun _ => true) [] "Simplex".toList (fun i => [UInt8.ofNat i]) 3 { files := fun _ => none }).files "Simplex_1_2.bmp".toList = some [2] := by
  obtain ⟨_, _, h, _⟩ := C52_exports_in_a_row (fun _ => true) (fun _ => true) [] "Simplex".toList (fun i => [UInt8.ofNat i]) { files := fun _ => none } (n := 3)
    (by norm_num) rfl rfl (fun _ _ => rfl) (fun _ _ => ⟨rfl, rfl⟩)
  exact h 2 (by norm_num)

/-- **C52.** Why partial, first: when 1023 names are taken, the next one is not checked any more, and a file of that name is overwritten. -/
theorem C52_overwrites (custom node : Name) (content old : List UInt8) (d : Disk) (h0 : d.exporting = false) (h1 : d.crashed = false)
    (htaken : ∀ j < 1023, (d.files (tried custom node j)).isSome) (_hold : d.files (tried custom node 1023) = some old) :
    (doExport (fun _ => true) (fun _ => true) custom node content d).files (tried custom node 1023) = some content := by
  unfold doExport
  rw [if_neg (by rw [h0, h1]; decide), choose_skip _ _ _ 1023 (le_refl _) (fun j hj => by simp [htaken j hj]), choose_last]
  simp

/-- Non-vacuity of `C52_overwrites`, and of `C52_no_overwrite_partial`. -/
example : ((doExport (fun _ => true) (fun _ => true) [] "Simplex".toList [7] { files := fun _ => some [1] }).files (tried [] "Simplex".toList 1023) = some [7]) ∧
    (doExport (fun _ => true) (fun _ => true) [] "Simplex".toList [7] { files := fun n => if n = "Simplex.bmp".toList then some [1] else none }).files
      "Simplex.bmp".toList = some [1] :=
  ⟨C52_overwrites [] _ [7] [1] _ rfl rfl (fun _ _ => rfl) rfl,
    (C52_no_overwrite_partial (fun _ => true) (fun _ => true) [] "Simplex".toList [7] _ (m := 1) (by norm_num) (by decide) (fun _ _ => rfl)).1 _ _ (by simp)⟩

/-- **C52.** Why partial, second: the numbers pile up in the name.  On a file system with names of at most 255 characters, 85 exports of a Simplex node work and the 86th
terminates the program, because `exists` throws. -/
theorem C52_long_name_crash (content : Nat → List UInt8) (canOpen : Name → Bool) (hopen : ∀ n, canOpen n = true) :
    let d := fun n => exports (fun m => decide (m.length ≤ 255)) canOpen [] "Simplex".toList content n { files := fun _ => none }
    (∀ n ≤ 85, (d n).crashed = false) ∧ (d 86).crashed = true := by
  have hlen : (tried [] "Simplex".toList 84).length = 254 ∧ (tried [] "Simplex".toList 85).length = 257 := by decide +kernel
  have hshort : ∀ j < 85, (tried [] "Simplex".toList j).length ≤ 255 := by
    intro j hj
    rcases Nat.lt_or_ge j 84 with h | h
    · exact (tried_length_mono [] "Simplex".toList h).le.trans (by rw [hlen.1]; norm_num)
    · have : j = 84 := by omega
      subst this; rw [hlen.1]; norm_num
  have key : ∀ n ≤ 85, _ := fun n (hn : n ≤ 85) => C52_exports_in_a_row (fun m => decide (m.length ≤ 255)) canOpen [] "Simplex".toList content { files := fun _ => none }
    (n := n) (by omega) rfl rfl (fun _ _ => rfl) (fun j hj => ⟨by simpa using hshort j (by omega), hopen _⟩)
  refine ⟨fun n hn => (key n hn).2.1, ?_⟩
  obtain ⟨k1, k2, k3, _⟩ := key 85 (le_refl _)
  show (doExport _ _ _ _ _ (exports _ _ _ _ _ 85 _)).crashed = true
  generalize exports (fun m => decide (m.length ≤ 255)) canOpen [] "Simplex".toList content 85 { files := fun _ => none } = e at k1 k2 k3
  unfold doExport
  rw [if_neg (by rw [k1, k2]; decide), choose_skip _ _ _ 85 (by norm_num) (fun j hj => by simp only [hshort j hj, decide_true, if_true, k3 j hj]; rfl),
    choose_step _ _ _ _ (by norm_num)]
  simp only [hlen.2]
  rfl

/-- **C52.** Why partial, third: if the file cannot be created, exporting stays disabled until the program is restarted. -/
theorem C52_failed_export_blocks (nameOk canOpen : Name → Bool) (custom node : Name) (content : List UInt8) (d : Disk) (hname : ∀ n, nameOk n = true)
    (hopen : ∀ n, canOpen n = false) (h0 : d.exporting = false) (h1 : d.crashed = false) (nameOk' canOpen' : Name → Bool) (custom' node' : Name) (content' : Nat → List UInt8)
    (n : Nat) :
    let d' := doExport nameOk canOpen custom node content d
    d'.files = d.files ∧ exports nameOk' canOpen' custom' node' content' n d' = d' := by
  have hd : ∃ d' : Disk, doExport nameOk canOpen custom node content d = d' ∧ d'.files = d.files ∧ d'.exporting = true := by
    unfold doExport
    rw [if_neg (by rw [h0, h1]; decide)]
    rcases choose_cases (fun n => if nameOk n then (if (d.files n).isSome then Stat.present else Stat.absent) else Stat.throws) custom node with
      ⟨k, _, _, _, hrun⟩ | ⟨k, _, _, hthrow, _⟩ | ⟨_, hrun⟩
    · rw [hrun]; simp [hopen]
    · simp only [hname, if_true] at hthrow
      split at hthrow <;> cases hthrow
    · rw [hrun]; simp [hopen]
  obtain ⟨d', h2, h3, h4⟩ := hd
  rw [h2]
  refine ⟨h3, ?_⟩
  induction n with
  | zero => rfl
  | succ n ih => rw [exports, ih]; unfold doExport; rw [if_pos (by rw [h4]; rfl)]

/-- **C52.** What the menu shows is what is exported: after the user edits the name to some text of up to 255 characters, the menu shows that text, and exports go to
that name (an empty text stands for the name of the generator). -/
theorem C52_menu_name (t node : Name) (ht : t.length ≤ 255) (hn : node.length ≤ 255) (hnode : node ≠ []) :
    shownName (editName t (some node)) (some node) = (if t = [] then node else t) ∧
      tried (editName t (some node)) node 0 =
        (if t = [] ∨ t = node then node ++ ['.', 'b', 'm', 'p'] else if ['.', 'b', 'm', 'p'] <:+ t then t else t ++ ['.', 'b', 'm', 'p']) := by
  have hdrop : ∀ u : Name, (u ++ ['.', 'b', 'm', 'p']).dropLast.dropLast.dropLast.dropLast = u := by
    intro u
    have e : u ++ ['.', 'b', 'm', 'p'] = u ++ ['.'] ++ ['b'] ++ ['m'] ++ ['p'] := by simp
    rw [e]
    simp only [List.dropLast_concat]
  unfold editName shownName tried stem suffix
  by_cases h1 : t = node
  · subst h1
    simp [hnode, List.take_of_length_le hn]
  · by_cases h2 : t = []
    · subst h2; simp [List.take_of_length_le hn]
    · simp only [ne_eq, h1, h2, not_false_eq_true, if_true, if_false, false_or, List.append_nil]
      refine ⟨List.take_of_length_le ht, ?_⟩
      by_cases h3 : ['.', 'b', 'm', 'p'] <:+ t
      · obtain ⟨u, rfl⟩ := h3
        rw [if_pos ⟨u, rfl⟩, if_pos ⟨u, rfl⟩, hdrop]
      · rw [if_neg h3, if_neg h3]

/-- Non-vacuity. -/
example : shownName (editName "map".toList (some "Simplex".toList)) (some "Simplex".toList) = "map".toList ∧
    tried (editName "map".toList (some "Simplex".toList)) "Simplex".toList 0 = "map.bmp".toList := by decide

end FastNoise.Texture
