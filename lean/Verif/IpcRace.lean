import Verif.Ipc

/-! # Node editor IPC with overlapping calls

The same functions, byte by byte: any number of processes on one shared memory segment, any interleaving of their memory accesses
(sequentially consistent).  `none` = a read outside the mapping. -/

namespace FastNoise.Ipc.Race

/-- Where a process is inside a call.
* `copy`: `memcpy` of the payload, next byte `i` (NodeEditorIpc_C.cpp:207); `typ`: 210; `rd`, `wr`: 216-220
* `pType`: the counter has been read (250), the type is next (251); `pLen`: `strlen` at offset `i` (275);
  `pCopy`: `memcpy` to the caller's buffer, next byte `i` (283) -/
inductive Pc where
  | idle
  | copy (type : UInt8) (text : List UInt8) (i : Nat)
  | typ (type : UInt8)
  | rd
  | wr (v : UInt8)
  | pType (b : Buf) (counter : UInt8)
  | pLen (b : Buf) (type : UInt8) (i : Nat)
  | pCopy (b : Buf) (type : UInt8) (len i : Nat) (out : List UInt8)

/-- `done`: results of finished polls, newest first: process, buffer, return code, bytes written. -/
structure St (P : Nat) where
  mem : Mem
  last : Fin P → UInt8
  pc : Fin P → Pc
  done : List (Fin P × Buf × Int × List UInt8)

variable {P : Nat}

def updP {β : Type} (f : Fin P → β) (a : Fin P) (b : β) : Fin P → β := fun x => if x = a then b else f x

def St.go (s : St P) (p : Fin P) (c : Pc) : St P := { s with pc := updP s.pc p c }
def St.ret (s : St P) (p : Fin P) (b : Buf) (code : Int) (out : List UInt8) : St P :=
  { s with pc := updP s.pc p .idle, done := (p, b, code, out) :: s.done }

def St.init : St P := ⟨fun _ => 0, fun _ => 0, fun _ => .idle, []⟩

inductive Act where
  | send (imp : Bool) (text : List UInt8)
  | poll (b : Buf)
  | run

/-- One memory access of process `p`, or the start of a call.  Calls start only when the process is idle. -/
def step (s : St P) (p : Fin P) : Act → Option (St P)
  | .send imp text =>
    match s.pc p with
    | .idle => if text.length + 3 ≥ shmSize then some s else some (s.go p (.copy (typeOf imp) text 0))
    | _ => some s
  | .poll b =>
    match s.pc p with
    | .idle => some (s.go p (.pType b (s.mem 0)))
    | _ => some s
  | .run =>
    match s.pc p with
    | .idle => some s
    | .copy type text i =>
      let s1 := { s with mem := upd s.mem (2 + i) ((text ++ [0]).getD i 0) }
      if i < text.length then some (s1.go p (.copy type text (i + 1))) else some (s1.go p (.typ type))
    | .typ type => some ({ s with mem := upd s.mem 1 type }.go p .rd)
    | .rd => some (s.go p (.wr (s.mem 0 + 1)))
    | .wr v => some ({ s with mem := upd s.mem 0 v, last := updP s.last p v }.go p .idle)
    | .pType b counter =>
      let type := s.mem 1
      if counter = s.last p then some (s.ret p b 0 [])
      else if type ≠ 1 ∧ type ≠ 2 then some ({ s with last := updP s.last p counter }.ret p b 0 [])
      else if b.null = true ∨ b.size ≤ 0 then some (s.ret p b (-1) [])
      else some ({ s with last := updP s.last p counter }.go p (.pLen b type 0))
    | .pLen b type i =>
      if 2 + i < shmSize then
        if s.mem (2 + i) ≠ 0 then some (s.go p (.pLen b type (i + 1)))
        else if ((i + 1 : Nat) : Int) > b.size then some (s.ret p b (-1) [])
        else some (s.go p (.pCopy b type i 0 []))
      else none
    | .pCopy b type len i out =>
      if 2 + i < shmSize then
        let out' := out ++ [s.mem (2 + i)]
        if i < len then some (s.go p (.pCopy b type len (i + 1) out')) else some (s.ret p b type.toNat out')
      else none

def run (s : St P) : List (Fin P × Act) → Option (St P)
  | [] => some s
  | (p, a) :: l => (step s p a).bind fun s' => run s' l

end FastNoise.Ipc.Race
