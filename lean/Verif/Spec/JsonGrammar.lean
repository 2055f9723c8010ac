import Verif.Go.Json
import Verif.Spec.Utf8
/-!
# The grammar of JSON (RFC 8259)

Which bytes are which value, with a bound on the nesting of arrays and objects.
-/
namespace Migp.Spec
open Migp.Json

/-- White space. -/
def IsWs (w : Bytes) : Prop := ∀ c ∈ w, c = 32 ∨ c = 9 ∨ c = 13 ∨ c = 10

/-- A decimal digit. -/
def IsDigit (c : UInt8) : Prop := 48 ≤ c.toNat ∧ c.toNat ≤ 57

/-- One or more digits. -/
def IsDigits (ds : Bytes) : Prop := ds ≠ [] ∧ ∀ c ∈ ds, IsDigit c

/-- An integer without sign and without leading zeros. -/
def IsWhole (ds : Bytes) : Prop := ds = [48] ∨ (IsDigits ds ∧ ds.head? ≠ some 48)

/-- A fraction part, or nothing. -/
def IsFrac (b : Bytes) : Prop := b = [] ∨ ∃ ds, b = 46 :: ds ∧ IsDigits ds

/-- An exponent part, or nothing. -/
def IsExp (b : Bytes) : Prop :=
  b = [] ∨ ∃ e sign ds, b = e :: (sign ++ ds) ∧ (e = 101 ∨ e = 69) ∧ (sign = [] ∨ sign = [43] ∨ sign = [45]) ∧ IsDigits ds

/-- A number. -/
def IsNumber (b : Bytes) : Prop :=
  ∃ sign whole frac exp, b = sign ++ whole ++ frac ++ exp ∧ (sign = [] ∨ sign = [45]) ∧ IsWhole whole ∧ IsFrac frac ∧
    IsExp exp

/-- A hexadecimal digit and its value. -/
def HexIs (c : UInt8) (n : Nat) : Prop :=
  (48 ≤ c.toNat ∧ c.toNat ≤ 57 ∧ n = c.toNat - 48) ∨ (65 ≤ c.toNat ∧ c.toNat ≤ 70 ∧ n = c.toNat - 65 + 10) ∨
    (97 ≤ c.toNat ∧ c.toNat ≤ 102 ∧ n = c.toNat - 97 + 10)

/-- An escape `\uXXXX` and its number. -/
def UnicodeEscape (e : Bytes) (n : Nat) : Prop :=
  ∃ a b c d na nb nc nd, e = [92, 117, a, b, c, d] ∧ HexIs a na ∧ HexIs b nb ∧ HexIs c nc ∧ HexIs d nd ∧
    n = na * 4096 + nb * 256 + nc * 16 + nd

/-- The escapes with a letter, and the characters they are for. -/
def escapes : List (Char × Char) :=
  [('b', Char.ofNat 8), ('f', Char.ofNat 12), ('n', '\n'), ('r', '\r'), ('t', '\t'), ('\\', '\\'), ('/', '/'), ('"', '"')]

/-- The character that stands for what is not one. -/
def replacement : Bytes := utf8 (Char.ofNat 0xFFFD)

/-- Between quotes there is `raw`, which stands for the string `s`. -/
inductive StringIs : (raw : Bytes) → (s : GoString) → Prop
  | nil : StringIs [] []
  /-- a character, but not a control character, a quote or a backslash -/
  | char {ch : Char} {raw s : Bytes} : 32 ≤ ch.toNat → ch ≠ '"' → ch ≠ '\\' → StringIs raw s →
      StringIs (utf8 ch ++ raw) (utf8 ch ++ s)
  /-- a byte that does not begin a character -/
  | invalid {c : UInt8} {raw s : Bytes} : (∀ ch : Char, ¬ utf8 ch <+: c :: raw) → StringIs raw s →
      StringIs (c :: raw) (replacement ++ s)
  /-- an escape with a letter -/
  | esc {x : Char × Char} {raw s : Bytes} : x ∈ escapes → StringIs raw s →
      StringIs (utf8 '\\' ++ utf8 x.1 ++ raw) (utf8 x.2 ++ s)
  /-- an escape with the number of a character -/
  | uni {e : Bytes} {ch : Char} {raw s : Bytes} : UnicodeEscape e ch.toNat → StringIs raw s →
      StringIs (e ++ raw) (utf8 ch ++ s)
  /-- two escapes that are a character in UTF-16 -/
  | pair {e e' : Bytes} {ch : Char} {raw s : Bytes} : 0x10000 ≤ ch.toNat →
      UnicodeEscape e (0xD800 + (ch.toNat - 0x10000) / 0x400) →
      UnicodeEscape e' (0xDC00 + (ch.toNat - 0x10000) % 0x400) → StringIs raw s →
      StringIs (e ++ e' ++ raw) (utf8 ch ++ s)
  /-- a surrogate that is not the first of such a pair -/
  | lone {e : Bytes} {n : Nat} {raw s : Bytes} : UnicodeEscape e n → 0xD800 ≤ n → n < 0xE000 →
      (n < 0xDC00 → ∀ e' lo, UnicodeEscape e' lo → 0xDC00 ≤ lo → lo < 0xE000 → ¬ e' <+: raw) → StringIs raw s →
      StringIs (e ++ raw) (replacement ++ s)

mutual
/-- The bytes are this value; arrays and objects are nested at most `depth` deep. -/
inductive IsValue : (depth : Nat) → Bytes → JVal → Prop
  | null {d : Nat} : IsValue d (ascii "null") .null
  | true {d : Nat} : IsValue d (ascii "true") (.bool true)
  | false {d : Nat} : IsValue d (ascii "false") (.bool false)
  | num {d : Nat} {lit : Bytes} : IsNumber lit → IsValue d lit (.num lit)
  | str {d : Nat} {raw : Bytes} {s : GoString} : StringIs raw s → IsValue d ([34] ++ raw ++ [34]) (.str s)
  | arr0 {d : Nat} {w : Bytes} : IsWs w → IsValue (d + 1) ([91] ++ w ++ [93]) (.arr [])
  | arr {d : Nat} {b : Bytes} {es : List JVal} : IsElems d b es → IsValue (d + 1) ([91] ++ b ++ [93]) (.arr es)
  | obj0 {d : Nat} {w : Bytes} : IsWs w → IsValue (d + 1) ([123] ++ w ++ [125]) (.obj [])
  | obj {d : Nat} {b : Bytes} {ms : List (GoString × JVal)} : IsMembers d b ms →
      IsValue (d + 1) ([123] ++ b ++ [125]) (.obj ms)
/-- Values between commas. -/
inductive IsElems : (depth : Nat) → Bytes → List JVal → Prop
  | one {d : Nat} {w1 b w2 : Bytes} {v : JVal} : IsWs w1 → IsValue d b v → IsWs w2 → IsElems d (w1 ++ b ++ w2) [v]
  | more {d : Nat} {w1 b w2 rest : Bytes} {v : JVal} {es : List JVal} : IsWs w1 → IsValue d b v → IsWs w2 →
      IsElems d rest es → IsElems d (w1 ++ b ++ w2 ++ [44] ++ rest) (v :: es)
/-- Members between commas. -/
inductive IsMembers : (depth : Nat) → Bytes → List (GoString × JVal) → Prop
  | one {d : Nat} {w1 k w2 w3 b w4 : Bytes} {key : GoString} {v : JVal} : IsWs w1 → StringIs k key → IsWs w2 → IsWs w3 → IsValue d b v →
      IsWs w4 → IsMembers d (w1 ++ ([34] ++ k ++ [34]) ++ w2 ++ [58] ++ w3 ++ b ++ w4) [(key, v)]
  | more {d : Nat} {w1 k w2 w3 b w4 rest : Bytes} {key : GoString} {v : JVal} {ms : List (GoString × JVal)} : IsWs w1 →
      StringIs k key →
      IsWs w2 → IsWs w3 → IsValue d b v → IsWs w4 → IsMembers d rest ms →
      IsMembers d (w1 ++ ([34] ++ k ++ [34]) ++ w2 ++ [58] ++ w3 ++ b ++ w4 ++ [44] ++ rest) ((key, v) :: ms)
end

/-- A document: one value with white space around it, nested at most 10000 deep (the limit of Go's decoder). -/
def IsDocument (data : Bytes) (v : JVal) : Prop :=
  ∃ w1 b w2, data = w1 ++ b ++ w2 ∧ IsWs w1 ∧ IsValue 10000 b v ∧ IsWs w2

/-- A stream that begins with this object. -/
def BeginsWithObject (data : Bytes) (ms : List (GoString × JVal)) : Prop :=
  ∃ w b rest, data = w ++ b ++ rest ∧ IsWs w ∧ IsValue 10000 b (.obj ms)

/-- A stream that begins with `null`. -/
def BeginsWithNull (data : Bytes) : Prop := ∃ w b rest, data = w ++ b ++ rest ∧ IsWs w ∧ IsValue 10000 b .null

end Migp.Spec
