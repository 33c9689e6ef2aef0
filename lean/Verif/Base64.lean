/-
Model of src/FastNoise/Base64.h (FastNoise2).

Characters and bytes are `UInt8`.  A C string is the list of its non-NUL characters; reading index
`length` gives the terminator 0, reading beyond it is undefined behaviour (`none`).
-/
namespace FastNoise.Base64

/-- Base64.h:14-23 `kEncodingTable`. -/
def encTable : List UInt8 :=
  "ABCDEFGHIJKLMNOPQRSTUVWXYZabcdefghijklmnopqrstuvwxyz0123456789+/".toList.map
    (fun c => UInt8.ofNat c.toNat)

/-- Base64.h:96-113 `kDecodingTable`, literally, 16 entries per line. -/
def decTable : List UInt8 := [
  64, 64, 64, 64, 64, 64, 64, 64, 64, 64, 64, 64, 64, 64, 64, 64,
  64, 64, 64, 64, 64, 64, 64, 64, 64, 64, 64, 64, 64, 64, 64, 64,
  64, 64, 64, 64, 64, 64, 64, 64, 64, 64, 64, 62, 64, 64, 64, 63,
  52, 53, 54, 55, 56, 57, 58, 59, 60, 61, 64, 64, 64, 0, 64, 64,
  64, 0, 1, 2, 3, 4, 5, 6, 7, 8, 9, 10, 11, 12, 13, 14,
  15, 16, 17, 18, 19, 20, 21, 22, 23, 24, 25, 64, 64, 64, 64, 64,
  64, 26, 27, 28, 29, 30, 31, 32, 33, 34, 35, 36, 37, 38, 39, 40,
  41, 42, 43, 44, 45, 46, 47, 48, 49, 50, 51, 64, 64, 64, 64, 64,
  64, 64, 64, 64, 64, 64, 64, 64, 64, 64, 64, 64, 64, 64, 64, 64,
  64, 64, 64, 64, 64, 64, 64, 64, 64, 64, 64, 64, 64, 64, 64, 64,
  64, 64, 64, 64, 64, 64, 64, 64, 64, 64, 64, 64, 64, 64, 64, 64,
  64, 64, 64, 64, 64, 64, 64, 64, 64, 64, 64, 64, 64, 64, 64, 64,
  64, 64, 64, 64, 64, 64, 64, 64, 64, 64, 64, 64, 64, 64, 64, 64,
  64, 64, 64, 64, 64, 64, 64, 64, 64, 64, 64, 64, 64, 64, 64, 64,
  64, 64, 64, 64, 64, 64, 64, 64, 64, 64, 64, 64, 64, 64, 64, 64,
  64, 64, 64, 64, 64, 64, 64, 64, 64, 64, 64, 64, 64, 64, 64, 64]

/-- `'A'` -/
abbrev chA : UInt8 := 65
/-- `'@'` -/
abbrev chAt : UInt8 := 64
/-- `'='` -/
abbrev chEq : UInt8 := 61

/-- `kEncodingTable[n]`; the model only indexes it below 64 (the caller's index is masked). -/
def enc (n : Nat) : UInt8 := encTable.getD n 0
/-- `kDecodingTable[static_cast<unsigned char>(c)]`, Base64.h:122,168,176-179; always in range. -/
def dec (c : UInt8) : Nat := (decTable.getD c.toNat 0).toNat

/-- State of the encoder lambda: output string `ret` and `consecutiveAs` (Base64.h:26-27). -/
structure EncSt where
  ret : List UInt8
  n : Nat
deriving Repr, DecidableEq

/-- `ret[len-2] = '@'; ret[len-1] = kEncodingTable[n-3]` (Base64.h:38-39, 49-50). -/
def rewriteTail (ret : List UInt8) (n : Nat) : List UInt8 :=
  (ret.set (ret.length - 2) chAt).set (ret.length - 1) (enc (n - 3))

/-- Base64.h:29-59 `appendChar`.  `std::size(kEncodingTable) + 2 = 66`; `consecutiveAs++ <= 1` tests the
old value, the later comparison sees the incremented one. -/
def appendChar (s : EncSt) (c : UInt8) : EncSt :=
  if c = chA then
    if s.n ≤ 1 then { ret := s.ret ++ [chA], n := s.n + 1 }
    else if s.n + 1 ≥ encTable.length + 2 then
      { ret := rewriteTail s.ret (s.n + 1) ++ [chA], n := 1 }
    else { s with n := s.n + 1 }
  else
    let ret := if s.n ≥ 3 then rewriteTail s.ret s.n else s.ret
    { ret := if c ≠ 0 then ret ++ [c] else ret, n := 0 }

/-- The four characters of a full block, Base64.h:65-68. -/
def block3 (a b c : UInt8) : List UInt8 :=
  [enc ((a >>> 2) &&& 0x3F).toNat,
   enc (((a &&& 0x3) <<< 4) ||| ((b &&& 0xF0) >>> 4)).toNat,
   enc (((b &&& 0xF) <<< 2) ||| ((c &&& 0xC0) >>> 6)).toNat,
   enc (c &&& 0x3F).toNat]

/-- Base64.h:72-88: characters appended after the main loop stopped at index `i`; `none` = read out of
bounds (undefined behaviour). -/
def tailChars (data : List UInt8) (i : Nat) : Option (List UInt8) :=
  if i < data.length then
    if i = data.length - 1 then do
      let a ← data[i]?
      pure [enc ((a >>> 2) &&& 0x3F).toNat, enc ((a &&& 0x3) <<< 4).toNat, chEq, chEq]
    else do
      let a ← data[i]?
      let b ← data[i+1]?
      pure [enc ((a >>> 2) &&& 0x3F).toNat,
            enc (((a &&& 0x3) <<< 4) ||| ((b &&& 0xF0) >>> 4)).toNat,
            enc ((b &&& 0xF) <<< 2).toNat, chEq]
  else pure [0]

/-- Base64.h:63-69 main loop (`i < inLen - 2` with `size_t` wrap-around of `inLen - 2`), producing the
sequence of characters handed to `appendChar`.  `none` = out-of-bounds read.  `fuel` only makes the
recursion structural; `encodeChars` supplies more than the loop can use. -/
def encLoop (data : List UInt8) : Nat → Nat → Option (List UInt8)
  | 0, _ => none
  | fuel + 1, i =>
    if i < (data.length + 2 ^ 64 - 2) % 2 ^ 64 then do
      let a ← data[i]?
      let b ← data[i+1]?
      let c ← data[i+2]?
      let rest ← encLoop data fuel (i + 3)
      pure (block3 a b c ++ rest)
    else tailChars data i

/-- All characters passed to `appendChar` by `Encode`. -/
def encodeChars (data : List UInt8) : Option (List UInt8) := encLoop data (data.length + 1) 0

/-- Base64.h:12-92 `Encode`; `none` = undefined behaviour (out-of-bounds read of `data`). -/
def encode (data : List UInt8) : Option (List UInt8) :=
  (encodeChars data).map fun cs => (cs.foldl appendChar { ret := [], n := 0 }).ret

/-! ### Decoder -/

/-- Outcome of `Decode`: `ub` marks a read past the terminator or a non-terminating loop. -/
inductive DecRes where
  | ub
  | done (out : List UInt8)
deriving Repr, DecidableEq

/-- `input[i]` of a NUL-terminated string; `none` past the terminator. -/
def rd (s : List UInt8) (i : Nat) : Option UInt8 :=
  if i < s.length then s[i]? else if i = s.length then some 0 else none

/-- Result of the first pass. -/
inductive P1 where
  | ub
  | reject
  | ok (rawLen decompLen : Nat)
deriving Repr, DecidableEq

/-- Base64.h:118-136: first pass over the string. -/
def pass1 (s : List UInt8) : Nat → Nat → Nat → P1
  | 0, _, _ => .ub
  | fuel + 1, rawLen, decompLen =>
    match rd s rawLen with
    | none => .ub
    | some c =>
      if c = 0 then .ok rawLen decompLen
      else if c = chAt then
        match rd s (rawLen + 1) with
        | none => .ub
        | some x =>
          if dec x = 64 then .reject
          else pass1 s fuel (rawLen + 1) (decompLen + (dec x + 2))
      else pass1 s fuel (rawLen + 1) (decompLen + 1)

/-- Base64.h:157-174, one iteration for `k`: returns character, new `i`, new `consecutiveAs`. -/
def nextChar (s : List UInt8) (i n : Nat) : Option (UInt8 × Nat × Nat) :=
  if n > 0 then some (chA, i, n - 1)
  else match rd s i with
    | none => none
    | some c =>
      if c = chAt then
        match rd s (i + 1) with
        | none => none
        | some x => some (chA, i + 2, dec x + 2)
      else some (c, i + 1, 0)

/-- Base64.h:176-181: the 24 bit group.  All table values are at most 64, so no 32 bit overflow. -/
def triple (a b c d : UInt8) : Nat :=
  dec a * 2 ^ 18 + dec b * 2 ^ 12 + dec c * 2 ^ 6 + dec d

/-- Base64.h:183-188: the (at most three) bytes written for one block with `room = outLen - j` slots left. -/
def blockBytes (t room : Nat) : List UInt8 :=
  [UInt8.ofNat (t / 2 ^ 16 % 256), UInt8.ofNat (t / 2 ^ 8 % 256), UInt8.ofNat (t % 256)].take room

/-- Base64.h:153-189 second pass; `out` is the part of the output buffer written so far (`j = out.length`). -/
def pass2 (s : List UInt8) (rawLen outLen : Nat) : Nat → Nat → Nat → List UInt8 → Option (List UInt8)
  | 0, _, _, _ => none
  | fuel + 1, i, n, out =>
    if i < rawLen ∨ n > 0 then do
      let (a, i, n) ← nextChar s i n
      let (b, i, n) ← nextChar s i n
      let (c, i, n) ← nextChar s i n
      let (d, i, n) ← nextChar s i n
      pass2 s rawLen outLen fuel i n (out ++ blockBytes (triple a b c d) (outLen - out.length))
    else some out

/-- Base64.h:138-148: output length, `none` = read before the start of the string. -/
def outLenOf (s : List UInt8) (rawLen decompLen : Nat) : Option Nat :=
  let outLen := decompLen / 4 * 3
  if rawLen < 2 then none else
  match rd s (rawLen - 1), rd s (rawLen - 2) with
  | some x, some y => some (if x = chEq then (if y = chEq then outLen - 2 else outLen - 1) else outLen)
  | _, _ => none

/-- Base64.h:94-192 `Decode`.  `out` is value-initialised (zeros) with `outLen` bytes, bytes never
written stay 0. -/
def decode (s : List UInt8) : DecRes :=
  match pass1 s (s.length + 1) 0 0 with
  | .ub => .ub
  | .reject => .done []
  | .ok rawLen decompLen =>
    if decompLen / 4 * 3 = 0 ∨ decompLen % 4 ≠ 0 then .done []
    else match outLenOf s rawLen decompLen with
      | none => .ub
      | some outLen =>
        match pass2 s rawLen outLen (decompLen + 1) 0 0 [] with
        | none => .ub
        | some out => .done (out ++ List.replicate (outLen - out.length) 0)

end FastNoise.Base64
