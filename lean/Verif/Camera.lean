import Mathlib.Analysis.SpecialFunctions.Trigonometric.Basic
/-!
# The camera of the mesh preview (tools/NodeEditor/NodeEditorApp.cpp:213-252, 291-410)

State changes by key events, mouse drags and frames.  Whether ImGui takes an event for itself is part of the event (any answer is possible).  Arithmetic is exact; Magnum's `lookAt`, `isZero` (dot product
below 1e-5), rotation matrices are transcribed from the library.  Non-detached window only.
-/
namespace FastNoise.Camera

noncomputable section

/-- Magnum's `Vector3` (exact arithmetic) with the operations used at NodeEditorApp.cpp:213-252, 388-410. -/
@[ext] structure V3 where
  x : ℝ
  y : ℝ
  z : ℝ

namespace V3
def add (a b : V3) : V3 := ⟨a.x + b.x, a.y + b.y, a.z + b.z⟩
def sub (a b : V3) : V3 := ⟨a.x - b.x, a.y - b.y, a.z - b.z⟩
def smul (k : ℝ) (a : V3) : V3 := ⟨k * a.x, k * a.y, k * a.z⟩
def dot (a b : V3) : ℝ := a.x * b.x + a.y * b.y + a.z * b.z
def cross (a b : V3) : V3 := ⟨a.y * b.z - a.z * b.y, a.z * b.x - a.x * b.z, a.x * b.y - a.y * b.x⟩
/-- Magnum `normalized()`: `*this * lengthInverted()` -/
def normalized (a : V3) : V3 := smul (1 / √(dot a a)) a
end V3

/-- The keys of `KeyMap`: NodeEditorApp.h:86-92. -/
inductive Key
  | w | a | s | d | q | e | left | right | up | down | pgUp | pgDn | lShift | rShift
  deriving DecidableEq

/-- `mKeyDown`, `mLookAngle` (degrees), the columns of the rotation of `mCameraObject` and its translation. -/
structure St where
  keys : Key → Bool
  yaw : ℝ
  pitch : ℝ
  right : V3
  up : V3
  back : V3
  pos : V3

/-- NodeEditorApp.h:73, 94 and NodeEditorApp.cpp:113. -/
def St.init : St := ⟨fun _ => false, 0, 0, ⟨1, 0, 0⟩, ⟨0, 1, 0⟩, ⟨0, 0, 1⟩, ⟨20, 20, 20⟩⟩

/-- What the window reports: NodeEditorApp.cpp:213 (frame), 291-307 (keys), 388 (pointer). -/
inductive Event
  /-- a key goes down (`true`) or up; `none`: a key the window does not use -/
  | key (taken : Bool) (k : Option Key) (value : Bool)
  /-- the pointer moves by `(dx, dy)`; `held`: primary pointer with the left button down -/
  | drag (taken held : Bool) (dx dy : ℝ)
  /-- a frame is drawn; `dt` is the duration of the previous one -/
  | frame (dt : ℝ)

/-- `HandleKeyEvent` as called by `keyPressEvent`, `keyReleaseEvent`: 291-358. -/
def onKey (s : St) (taken : Bool) (k : Option Key) (value : Bool) : St :=
  if taken then s else match k with
    | some k => { s with keys := Function.update s.keys k value }
    | none => s

/-- `std::fmod( x, 360.0f )` -/
def fmod360 (x : ℝ) : ℝ := x - 360 * (if 0 ≤ x then ⌊x / 360⌋ else ⌈x / 360⌉ : ℤ)

/-- Magnum's conversion from degrees to radians. -/
def deg (a : ℝ) : ℝ := a * Real.pi / 180

/-- `Matrix4::rotationY( yaw ) * Matrix4::rotationX( pitch )` applied to the z axis: 404-406. -/
def rotatedZ (yaw pitch : ℝ) : V3 :=
  let v : V3 := ⟨0, -Real.sin (deg pitch), Real.cos (deg pitch)⟩  -- rotationX * (0, 0, 1)
  ⟨Real.cos (deg yaw) * v.x + Real.sin (deg yaw) * v.z, v.y, -Real.sin (deg yaw) * v.x + Real.cos (deg yaw) * v.z⟩

/-- `Matrix4::lookAt( eye, target, up )` of Magnum. -/
def lookAt (s : St) (eye target up : V3) : St :=
  let backward := (eye.sub target).normalized
  let right := (up.cross backward).normalized
  { s with right := right, up := backward.cross right, back := backward, pos := eye }

/-- `pointerMoveEvent`: 388-410. -/
def onDrag (s : St) (taken held : Bool) (dx dy : ℝ) : St :=
  if taken then s
  else if !held then s
  else
    let ax := dx * 0.22
    let ay := dy * 0.22
    if |ax * ax + ay * ay| < 1e-5 then s
    else
      let yaw := fmod360 (s.yaw - ax)
      let pitch := min (max (s.pitch - ay) (-89)) 89
      let s := { s with yaw := yaw, pitch := pitch }
      lookAt s s.pos (s.pos.sub (rotatedZ yaw pitch)) ⟨0, 1, 0⟩

/-- `cameraVelocity` before the frame time: 213-242. -/
def velocity (keys : Key → Bool) : V3 :=
  let step (b : Bool) (v : ℝ) : ℝ := if b then v else 0
  let z := step (keys .w || keys .up) (-1) + step (keys .s || keys .down) 1
  let x := step (keys .a || keys .left) (-1) + step (keys .d || keys .right) 1
  let y := step (keys .q || keys .pgDn) (-1) + step (keys .e || keys .pgUp) 1
  if keys .rShift || keys .lShift then ⟨x * 4, y * 4, z * 4⟩ else ⟨x, y, z⟩

/-- The camera part of `drawEvent`: 244-252.  `transform.rotation()` has the columns of the rotation, which are orthonormal (C72_view). -/
def onFrame (s : St) (dt : ℝ) : St :=
  let v := (velocity s.keys).smul (dt * 80)
  if |v.dot v| < 1e-5 then s
  else { s with pos := s.pos.add (((s.right.smul v.x).add (s.up.smul v.y)).add (s.back.smul v.z)) }

/-- One event: NodeEditorApp.cpp:213-252, 291-358, 388-410. -/
def step (s : St) : Event → St
  | .key t k v => onKey s t k v
  | .drag t h dx dy => onDrag s t h dx dy
  | .frame dt => onFrame s dt

/-- All events so far. -/
def run (l : List Event) : St := l.foldl step St.init

end
end FastNoise.Camera
