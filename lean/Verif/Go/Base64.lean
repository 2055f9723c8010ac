import Verif.Go.Basic
/-!
# `encoding/base64.StdEncoding`
-/
namespace Migp

/-- The alphabet `A-Za-z0-9+/`. -/
def b64Char (n : Nat) : UInt8 :=
  if n < 26 then UInt8.ofNat (65 + n)
  else if n < 52 then UInt8.ofNat (71 + n)
  else if n < 62 then UInt8.ofNat (n - 4)
  else if n = 62 then 43 else 47

/-- `StdEncoding.EncodeToString`. -/
def b64Encode : Bytes → GoString
  | [] => []
  | [a] => [b64Char (a.toNat / 4), b64Char (a.toNat % 4 * 16), 61, 61]
  | [a, b] => [b64Char (a.toNat / 4), b64Char (a.toNat % 4 * 16 + b.toNat / 16),
      b64Char (b.toNat % 16 * 4), 61]
  | a :: b :: c :: rest => b64Char (a.toNat / 4) :: b64Char (a.toNat % 4 * 16 + b.toNat / 16) ::
      b64Char (b.toNat % 16 * 4 + c.toNat / 64) :: b64Char (c.toNat % 64) :: b64Encode rest

/-- `decodeMap`: the value of a character of the alphabet. -/
def b64Val (c : UInt8) : Option Nat :=
  let n := c.toNat
  if 65 ≤ n ∧ n ≤ 90 then some (n - 65)
  else if 97 ≤ n ∧ n ≤ 122 then some (n - 71)
  else if 48 ≤ n ∧ n ≤ 57 then some (n + 4)
  else if n = 43 then some 62
  else if n = 47 then some 63
  else none

/-- Groups of four characters; only the last may be padded (with `=`, character 61), and nothing may
follow it. Bits that the padding cuts off are not checked (the encoding is not `Strict`). -/
def b64Quanta : Bytes → Option Bytes
  | [] => some []
  | a :: b :: c :: d :: rest =>
    match b64Val a, b64Val b with
    | some x, some y =>
      if c.toNat = 61 then
        if d.toNat = 61 ∧ rest = [] then some [UInt8.ofNat (x * 4 + y / 16)] else none
      else
        match b64Val c with
        | none => none
        | some z =>
          if d.toNat = 61 then
            if rest = [] then some [UInt8.ofNat (x * 4 + y / 16), UInt8.ofNat (y % 16 * 16 + z / 4)]
            else none
          else
            match b64Val d, b64Quanta rest with
            | some w, some r => some (UInt8.ofNat (x * 4 + y / 16) :: UInt8.ofNat (y % 16 * 16 + z / 4) ::
                UInt8.ofNat (z % 4 * 64 + w) :: r)
            | _, _ => none
    | _, _ => none
  | _ => none

/-- `StdEncoding.Decode`: carriage returns and newlines are skipped wherever they occur; `none` is a
`CorruptInputError`. -/
def b64Decode (s : Bytes) : Option Bytes := b64Quanta (s.filter (fun c => c.toNat ≠ 10 ∧ c.toNat ≠ 13))

end Migp
