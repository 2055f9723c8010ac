import Verif.Go.Basic
/-!
# `unicode` on Latin-1 runes and `unicode/utf8` rune widths
-/
namespace Migp

/-- `unicode.IsLetter(r)` for `r < 256` (the Latin-1 property table). -/
def isLetterLatin1 (n : Nat) : Bool :=
  (0x41 ≤ n && n ≤ 0x5A) || (0x61 ≤ n && n ≤ 0x7A) || n == 0xAA || n == 0xB5 || n == 0xBA ||
  (0xC0 ≤ n && n ≤ 0xD6) || (0xD8 ≤ n && n ≤ 0xF6) || (0xF8 ≤ n && n ≤ 0xFF)

/-- `unicode.IsUpper(r)` for `r < 256`. -/
def isUpperLatin1 (n : Nat) : Bool :=
  (0x41 ≤ n && n ≤ 0x5A) || (0xC0 ≤ n && n ≤ 0xD6) || (0xD8 ≤ n && n ≤ 0xDE)

/-- `unicode.IsLower(r)` for `r < 256`. (U+00AA and U+00BA are category Lo: letters, neither upper
nor lower.) -/
def isLowerLatin1 (n : Nat) : Bool :=
  (0x61 ≤ n && n ≤ 0x7A) || n == 0xB5 || (0xDF ≤ n && n ≤ 0xF6) || (0xF8 ≤ n && n ≤ 0xFF)

/-- `unicode.ToLower(r)` for an upper-case Latin-1 rune. -/
def toLowerLatin1 (n : Nat) : Nat := if isUpperLatin1 n then n + 32 else n

/-- `unicode.ToUpper(r)` for a lower-case Latin-1 rune: U+00B5 ↦ U+039C, U+00FF ↦ U+0178, U+00DF has
no simple upper-case mapping. -/
def toUpperLatin1 (n : Nat) : Nat :=
  if n == 0xB5 then 0x39C
  else if n == 0xFF then 0x178
  else if n == 0xDF then 0xDF
  else if isLowerLatin1 n then n - 32 else n

/-- Continuation byte in the given range. -/
def inRange (lo hi : Nat) (b : Option UInt8) : Bool :=
  match b with
  | some x => lo ≤ x.toNat && x.toNat ≤ hi
  | none => false

/-- The width returned by `utf8.DecodeRune(s)` for non-empty `s` (1 for invalid encodings). -/
def runeWidth (s : Bytes) : Nat :=
  let c := inRange 0x80 0xBF
  match s with
  | [] => 0
  | b :: rest =>
    let n := b.toNat
    let b1 := rest[0]?
    let b2 := rest[1]?
    let b3 := rest[2]?
    if n < 0x80 then 1
    else if 0xC2 ≤ n && n ≤ 0xDF then (if c b1 then 2 else 1)
    else if n == 0xE0 then (if inRange 0xA0 0xBF b1 && c b2 then 3 else 1)
    else if n == 0xED then (if inRange 0x80 0x9F b1 && c b2 then 3 else 1)
    else if 0xE1 ≤ n && n ≤ 0xEF then (if c b1 && c b2 then 3 else 1)
    else if n == 0xF0 then (if inRange 0x90 0xBF b1 && c b2 && c b3 then 4 else 1)
    else if n == 0xF4 then (if inRange 0x80 0x8F b1 && c b2 && c b3 then 4 else 1)
    else if 0xF1 ≤ n && n ≤ 0xF3 then (if c b1 && c b2 && c b3 then 4 else 1)
    else 1

end Migp
