/-
Independent specification of standard base64 text (RFC 4648 with padding), in plain arithmetic.
It does not use any definition of the model.
-/
namespace FastNoise.Spec

/-- The base64 alphabet as character codes. -/
def b64Char (n : Nat) : UInt8 :=
  if n < 26 then UInt8.ofNat (65 + n)              -- 'A'..'Z'
  else if n < 52 then UInt8.ofNat (97 + (n - 26))  -- 'a'..'z'
  else if n < 62 then UInt8.ofNat (48 + (n - 52))  -- '0'..'9'
  else if n = 62 then 43                           -- '+'
  else 47                                          -- '/'

/-- RFC 4648 text of a byte list: each group of three bytes is a 24 bit number written as four
base-64 digits; a final group of one or two bytes is padded with `=` (61). -/
def rfc4648 : List UInt8 → List UInt8
  | a :: b :: c :: rest =>
    let v := a.toNat * 65536 + b.toNat * 256 + c.toNat
    b64Char (v / 262144) :: b64Char (v / 4096 % 64) :: b64Char (v / 64 % 64) :: b64Char (v % 64) ::
      rfc4648 rest
  | [a, b] =>
    let v := a.toNat * 65536 + b.toNat * 256
    [b64Char (v / 262144), b64Char (v / 4096 % 64), b64Char (v / 64 % 64), 61]
  | [a] =>
    let v := a.toNat * 65536
    [b64Char (v / 262144), b64Char (v / 4096 % 64), 61, 61]
  | [] => []

/-- `l` contains `n` consecutive copies of `x`. -/
def HasRun {α : Type} (n : Nat) (x : α) (l : List α) : Prop :=
  ∃ pre post, l = pre ++ List.replicate n x ++ post

end FastNoise.Spec
