import Verif.Go.Unicode
/-!
# UTF-8 encoding of runes and splitting of byte strings into runes
-/
namespace Migp

/-- `utf8.EncodeRune` for a code point that is not a surrogate and below 0x110000. -/
def encodeRune (n : Nat) : Bytes :=
  if n < 0x80 then [UInt8.ofNat n]
  else if n < 0x800 then [UInt8.ofNat (0xC0 + n / 64), UInt8.ofNat (0x80 + n % 64)]
  else if n < 0x10000 then
    [UInt8.ofNat (0xE0 + n / 4096), UInt8.ofNat (0x80 + n / 64 % 64), UInt8.ofNat (0x80 + n % 64)]
  else [UInt8.ofNat (0xF0 + n / 262144), UInt8.ofNat (0x80 + n / 4096 % 64),
    UInt8.ofNat (0x80 + n / 64 % 64), UInt8.ofNat (0x80 + n % 64)]

/-- The encoding of U+FFFD, which stands for bytes that are not UTF-8. -/
def replacementChar : Bytes := [0xEF, 0xBF, 0xBD]

/-- The pieces that repeated `utf8.DecodeRune` cuts a string into (`skip` bytes belong to the piece already
emitted): encoded runes, and single bytes that do not begin one. -/
def runesFrom : (skip : Nat) → Bytes → List Bytes
  | _, [] => []
  | skip + 1, _ :: rest => runesFrom skip rest
  | 0, b :: rest => (b :: rest).take (runeWidth (b :: rest)) :: runesFrom (runeWidth (b :: rest) - 1) rest

/-- The pieces of a string. -/
def runes (s : Bytes) : List Bytes := runesFrom 0 s

/-- A piece that is a byte ≥ 0x80 on its own is not UTF-8 and is replaced by U+FFFD. -/
def coerceRune (r : Bytes) : Bytes :=
  match r with
  | [b] => if b.toNat < 0x80 then [b] else replacementChar
  | _ => r

/-- The string with everything that is not UTF-8 replaced (`strings.ToValidUTF8` byte by byte). -/
def toValidUTF8 (s : Bytes) : Bytes := (runes s).flatMap coerceRune

/-- `utf8.Valid`. -/
def validUTF8 (s : Bytes) : Bool := (runes s).all (fun r => match r with
  | [b] => b.toNat < 0x80
  | _ => true)

end Migp
