/-! # Node editor IPC (tools/NodeEditorIpc/NodeEditorIpc_C.cpp)

Shared memory segments as byte maps, API calls as atomic functions (overlapping calls are in `IpcRace.lean`).
Outcome `none`: undefined behaviour (use of a released context, read past the end of the mapping).
POSIX branch of the code; `fnEditorIpcStartNodeEditor` and the search for the executable are in `Launch.lean`. -/

namespace FastNoise.Ipc

/-- `kSharedMemorySize`, NodeEditorIpc_C.cpp:33. -/
def shmSize : Nat := 64 * 1024

abbrev Mem := Nat → UInt8

/-- `IpcContext`, NodeEditorIpc_C.cpp:48-55 (`sharedMemory` as the id of the mapped segment; it is never null after a
successful setup). -/
structure Ctx where
  seg : Nat
  last : UInt8

/-- The world: segments created so far, the segment the name `/FastNoise2NodeEditor` refers to, live contexts. -/
structure World where
  segs : Nat → Mem
  nsegs : Nat
  named : Option Nat
  ctxs : Nat → Option Ctx
  nctx : Nat

def World.init : World := ⟨fun _ _ => 0, 0, none, fun _ => none, 0⟩

def upd {β : Type} (f : Nat → β) (a : Nat) (b : β) : Nat → β := fun x => if x = a then b else f x

/-- `shm_open( O_CREAT )` + `ftruncate` + `mmap` (102-121): the named segment, or a new zero filled one. -/
def openShm (w : World) : World × Nat :=
  match w.named with
  | some s => (w, s)
  | none => ({ w with segs := upd w.segs w.nsegs (fun _ => 0), nsegs := w.nsegs + 1, named := some w.nsegs }, w.nsegs)

/-- NodeEditorIpc_C.cpp:57-149 `fnEditorIpcSetup`; `ok = false`: one of the system calls fails, the result is null. -/
def setup (w : World) (readPrevious ok : Bool) : World × Option Nat :=
  if ok then
    let (w, s) := openShm w
    let counter := w.segs s 0
    let msg := w.segs s 1
    let last := if readPrevious && msg == 1 then counter - 1 else counter
    ({ w with ctxs := upd w.ctxs w.nctx (some ⟨s, last⟩), nctx := w.nctx + 1 }, some w.nctx)
  else (w, none)

/-- NodeEditorIpc_C.cpp:151-180 `fnEditorIpcRelease`: unmaps, **unlinks the name**, deletes the context. -/
def release (w : World) (h : Option Nat) : Option World :=
  match h with
  | none => some w
  | some c =>
    match w.ctxs c with
    | none => none
    | some _ => some { w with named := none, ctxs := upd w.ctxs c none }

/-- `std::memcpy( mem + off, bytes )`. -/
def copyTo (m : Mem) (off : Nat) (bytes : List UInt8) : Mem :=
  fun i => if off ≤ i ∧ i < off + bytes.length then bytes.getD (i - off) 0 else m i

/-- NodeEditorIpc_C.cpp:182-233 `SendMessage` via `fnEditorIpcSendSelectedNode` (type 1) and `fnEditorIpcSendImportRequest`
(type 2).  `text = none`: a null pointer; otherwise the characters before the terminating zero. -/
def send (w : World) (h : Option Nat) (type : UInt8) (text : Option (List UInt8)) : Option (World × Bool) :=
  match h with
  | none => some (w, false)
  | some c =>
    match w.ctxs c with
    | none => none
    | some ctx =>
      match text with
      | none => some (w, false)
      | some text =>
        if text.length + 3 ≥ shmSize then some (w, false)
        else
          let m1 := copyTo (w.segs ctx.seg) 2 (text ++ [0])
          let m2 := upd m1 1 type
          let newCounter := m2 0 + 1
          let m3 := upd m2 0 newCounter
          some ({ w with segs := upd w.segs ctx.seg m3, ctxs := upd w.ctxs c (some { ctx with last := newCounter }) }, true)

/-- `std::strlen` starting at index `p` of the mapping; `none`: reads past the end. -/
def strlen (m : Mem) : Nat → Nat → Option Nat
  | _, 0 => none
  | p, fuel + 1 => if m p = 0 then some 0 else (strlen m (p + 1) fuel).map (· + 1)

/-- The caller's buffer: null or not, and the size passed. -/
structure Buf where
  null : Bool
  size : Int

/-- NodeEditorIpc_C.cpp:235-285 `fnEditorIpcPollMessage`: return value and the bytes written to the start of the buffer. -/
def poll (w : World) (h : Option Nat) (b : Buf) : Option (World × Int × List UInt8) :=
  match h with
  | none => some (w, -2, [])
  | some c =>
    match w.ctxs c with
    | none => none
    | some ctx =>
      let m := w.segs ctx.seg
      let counter := m 0
      let type := m 1
      let consumed := { w with ctxs := upd w.ctxs c (some { ctx with last := counter }) }
      if counter = ctx.last then some (w, 0, [])
      else if type ≠ 1 ∧ type ≠ 2 then some (consumed, 0, [])
      else if b.null = true ∨ b.size ≤ 0 then some (w, -1, [])
      else
        match strlen m 2 (shmSize - 2) with
        | none => none
        | some n =>
          if ((n + 1 : Nat) : Int) > b.size then some (consumed, -1, [])
          else some (consumed, (type.toNat : Int), (List.range (n + 1)).map fun i => m (2 + i))

/-- API calls of all processes. -/
inductive Op where
  | setup (readPrevious ok : Bool)
  | release (h : Option Nat)
  | send (h : Option Nat) (imp : Bool) (text : Option (List UInt8))
  | poll (h : Option Nat) (b : Buf)

/-- What a caller sees. -/
inductive Out where
  | handle (h : Option Nat)
  | unit
  | bool (b : Bool)
  | msg (code : Int) (bytes : List UInt8)
  deriving DecidableEq

/-- NodeEditorIpc_C.h:11-15 message types. -/
def typeOf (imp : Bool) : UInt8 := if imp then 2 else 1

def step (w : World) : Op → Option (World × Out)
  | .setup r ok => let (w', h) := setup w r ok; some (w', .handle h)
  | .release h => (release w h).map fun w' => (w', .unit)
  | .send h imp text => (send w h (typeOf imp) text).map fun (w', b) => (w', .bool b)
  | .poll h b => (poll w h b).map fun (w', c, bs) => (w', .msg c bs)

def run (w : World) : List Op → Option (World × List Out)
  | [] => some (w, [])
  | op :: ops =>
    match step w op with
    | none => none
    | some (w', o) => (run w' ops).map fun (w'', os) => (w'', o :: os)

end FastNoise.Ipc
