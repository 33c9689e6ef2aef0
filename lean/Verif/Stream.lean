/-
Byte stream layer of src/FastNoise/Metadata.cpp: MemberLookup, DataStream, AddToDataStream,
GetFromDataStream.
-/
namespace FastNoise.Stream

/-! `MemberLookup::Type` (Metadata.cpp:90-97). -/
abbrev tVariable : Nat := 0
abbrev tLookup : Nat := 1
abbrev tHybridLookup : Nat := 2
abbrev tHybridVariable : Nat := 3
abbrev tNodeEnd : Nat := 4

/-- Metadata.cpp:88-106: `union MemberLookup` seen as its byte.  Bit-field layout (low 3 bits `type`,
high 5 bits `index`) is the one of GCC/Clang/MSVC on little-endian targets (trusted base).  Assigning
an index to the 5 bit field truncates it. -/
def lookupByte (type index : Nat) : UInt8 := UInt8.ofNat (type % 8 + index % 32 * 8)

/-- A decoded `MemberLookup`. -/
structure Lookup where
  type : Nat
  index : Nat
deriving Repr, DecidableEq

/-- The bit-fields of a byte (Metadata.cpp:99-103). -/
def Lookup.ofByte (b : UInt8) : Lookup := { type := b.toNat % 8, index := b.toNat / 8 }

/-- Metadata.cpp:136-139 for `sizeof(T) = 2`: little endian bytes. -/
def le16 (v : Nat) : List UInt8 := [UInt8.ofNat (v % 256), UInt8.ofNat (v / 256 % 256)]
/-- Metadata.cpp:136-139 for `sizeof(T) = 4`. -/
def le32 (v : UInt32) : List UInt8 :=
  [UInt8.ofNat (v.toNat % 256), UInt8.ofNat (v.toNat / 256 % 256),
   UInt8.ofNat (v.toNat / 65536 % 256), UInt8.ofNat (v.toNat / 16777216 % 256)]
/-- Metadata.cpp:323 `*reinterpret_cast<const uint16_t*>` on a little-endian machine. -/
def unle16 : List UInt8 → Nat
  | [a, b] => a.toNat + b.toNat * 256
  | _ => 0
/-- Metadata.cpp:323 for a 4 byte value. -/
def unle32 : List UInt8 → UInt32
  | [a, b, c, d] => UInt32.ofNat (a.toNat + b.toNat * 256 + c.toNat * 65536 + d.toNat * 16777216)
  | _ => 0

/-! ### Writing -/

/-- Metadata.cpp:108-113 `DataStream` as used by the serialiser. -/
structure WS where
  stream : List UInt8
  stack : Nat
deriving Repr, DecidableEq

/-- Metadata.cpp:118-129 `DataStreamCheckNodeEnd`. -/
def WS.flush (d : WS) : WS :=
  if d.stack > 0 then { stream := d.stream ++ [lookupByte tNodeEnd (d.stack - 1)], stack := 0 } else d

/-- Metadata.cpp:131-140 `AddToDataStream` with the value given as its bytes. -/
def WS.add (d : WS) (bs : List UInt8) : WS :=
  { d.flush with stream := d.flush.stream ++ bs }

/-- Metadata.cpp:142-149 `AddMemberLookupToDataStream`. -/
def WS.addLookup (d : WS) (type index : Nat) : WS := d.add [lookupByte type index]

/-- Metadata.cpp:151-158 `AddNodeEndToDataStream`. -/
def WS.nodeEnd (d : WS) : WS :=
  let d := { d with stack := d.stack + 1 }
  if d.stack < 32 then d else d.flush

/-! ### Reading -/

/-- Metadata.cpp:108-113 `DataStream` as used by the deserialisers. -/
structure RS where
  stream : List UInt8
  pos : Nat
  stack : Nat
deriving Repr, DecidableEq

/-- Result of reading from the stream: `ub` = out-of-bounds read, `fail` = `return false`. -/
inductive Rd (α : Type) where
  | ub
  | fail
  | ok (a : α) (d : RS)
deriving Repr

/-- Raw memory read of `n` bytes at `pos`; `none` if any byte is outside the vector. -/
def readAt (s : List UInt8) (pos : Nat) : Nat → Option (List UInt8)
  | 0 => some []
  | n + 1 => do
    let b ← s[pos]?
    let r ← readAt s (pos + 1) n
    pure (b :: r)

/-- Metadata.cpp:310-327 `GetFromDataStream<T>` with `sizeof(T) = n`. -/
def RS.get (d : RS) (n : Nat) : Rd (List UInt8) :=
  if d.stack > 0 then .fail
  else if d.stream.length < d.pos + n then .fail
  else match readAt d.stream d.pos n with
    | none => .ub
    | some bs => .ok bs { d with pos := d.pos + n }

/-- Metadata.cpp:329-353 `GetFromDataStream<MemberLookup>`.  When a pending node end is consumed only
`member.type` is written; the index keeps its old value `old` (it is never used for a node end). -/
def RS.getLookup (d : RS) (old : Nat) : Rd Lookup :=
  if d.stack > 0 then .ok { type := tNodeEnd, index := old } { d with stack := d.stack - 1 }
  else if d.stream.length < d.pos + 1 then .fail
  else match readAt d.stream d.pos 1 with
    | some [b] =>
      let l := Lookup.ofByte b
      .ok l { d with pos := d.pos + 1, stack := if l.type = tNodeEnd then l.index else d.stack }
    | _ => .ub

end FastNoise.Stream
