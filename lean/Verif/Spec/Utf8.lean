import Verif.Go.Basic
/-!
# UTF-8
-/
namespace Migp.Spec

/-- The UTF-8 encoding of a character (of any Unicode scalar value), by Lean's own definition. -/
def utf8 (ch : Char) : Bytes := String.utf8EncodeChar ch

/-- The bytes are UTF-8: the encodings of some characters, one after another. -/
def IsUtf8 (s : Bytes) : Prop := ∃ chars : List Char, s = chars.flatMap utf8

/-- `t` is `s` with U+FFFD in place of every byte that is not part of a character. -/
inductive Replaced : (s t : Bytes) → Prop
  | nil : Replaced [] []
  | char (ch : Char) {s t : Bytes} : Replaced s t → Replaced (utf8 ch ++ s) (utf8 ch ++ t)
  | invalid {c : UInt8} {s t : Bytes} : (∀ ch : Char, ¬ utf8 ch <+: c :: s) → Replaced s t →
      Replaced (c :: s) (utf8 (Char.ofNat 0xFFFD) ++ t)

end Migp.Spec
