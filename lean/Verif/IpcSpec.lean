import Verif.Ipc

/-! # What the IPC offers: a mailbox

A mailbox keeps the messages sent to it (newest first); a client remembers how many of them it has seen.  Polling gives the
newest message if there is an unseen one. -/

namespace FastNoise.Ipc

structure Message where
  imp : Bool
  text : List UInt8

structure Client where
  box : Nat
  seen : Nat

structure Spec where
  boxes : Nat → List Message
  nboxes : Nat
  named : Option Nat
  clients : Nat → Option Client
  nclients : Nat

def Spec.init : Spec := ⟨fun _ => [], 0, none, fun _ => none, 0⟩

def Message.code (m : Message) : Int := if m.imp then 2 else 1

/-- How many messages a new client counts as seen. -/
def seenAtSetup (msgs : List Message) (readPrevious : Bool) : Nat :=
  match msgs with
  | [] => 0
  | m :: rest => if readPrevious && !m.imp then rest.length else rest.length + 1

/-- Joining: the mailbox with the agreed name, or a new one.  With `readPrevious` the newest message counts as unseen if it is a
"selected node" message. -/
def Spec.setup (s : Spec) (readPrevious ok : Bool) : Spec × Option Nat :=
  if ok then
    let (s, b) := match s.named with
      | some b => (s, b)
      | none => ({ s with boxes := upd s.boxes s.nboxes [], nboxes := s.nboxes + 1, named := some s.nboxes }, s.nboxes)
    ({ s with clients := upd s.clients s.nclients (some ⟨b, seenAtSetup (s.boxes b) readPrevious⟩), nclients := s.nclients + 1 }, some s.nclients)
  else (s, none)

/-- `none`: the handle is not valid (any more). -/
def Spec.step (s : Spec) : Op → Option (Spec × Out)
  | .setup r ok => let (s', h) := s.setup r ok; some (s', .handle h)
  | .release none => some (s, .unit)
  | .release (some c) =>
    match s.clients c with
    | none => none
    | some _ => some ({ s with named := none, clients := upd s.clients c none }, .unit)
  | .send none _ _ => some (s, .bool false)
  | .send (some c) imp text =>
    match s.clients c with
    | none => none
    | some cl =>
      match text with
      | none => some (s, .bool false)
      | some text =>
        if text.length ≤ 65532 then
          some ({ s with boxes := upd s.boxes cl.box (⟨imp, text⟩ :: s.boxes cl.box),
                         clients := upd s.clients c (some { cl with seen := (s.boxes cl.box).length + 1 }) }, .bool true)
        else some (s, .bool false)
  | .poll none _ => some (s, .msg (-2) [])
  | .poll (some c) b =>
    match s.clients c with
    | none => none
    | some cl =>
      let n := (s.boxes cl.box).length
      let unseen := n - cl.seen
      match s.boxes cl.box with
      | [] => some (s, .msg 0 [])
      | m :: _ =>
        if unseen % 256 = 0 then some (s, .msg 0 [])
        else if b.null = true ∨ b.size ≤ 0 then some (s, .msg (-1) [])
        else
          let s' := { s with clients := upd s.clients c (some { cl with seen := n }) }
          if b.size < m.text.length + 1 then some (s', .msg (-1) [])
          else some (s', .msg m.code (m.text ++ [0]))

def Spec.run (s : Spec) : List Op → Option (Spec × List Out)
  | [] => some (s, [])
  | op :: ops =>
    match s.step op with
    | none => none
    | some (s', o) => (s'.run ops).map fun (s'', os) => (s'', o :: os)

/-- C strings contain no zero byte. -/
def Op.wf : Op → Prop
  | .send _ _ (some text) => (0 : UInt8) ∉ text
  | _ => True

end FastNoise.Ipc
