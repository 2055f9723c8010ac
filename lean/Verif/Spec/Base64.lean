import Verif.Go.Basic
import Mathlib.Data.List.Forall2
/-!
# Base64 (RFC 4648, section 4)
-/
namespace Migp.Spec

/-- The last `w` binary digits of `n`, most significant first. -/
def bits : (w n : Nat) → List Bool
  | 0, _ => []
  | w + 1, n => decide (n / 2 ^ w % 2 = 1) :: bits w n

/-- The alphabet, table 1 of the RFC: `A-Z a-z 0-9 + /`. -/
def base64Alphabet : Bytes :=
  "ABCDEFGHIJKLMNOPQRSTUVWXYZabcdefghijklmnopqrstuvwxyz0123456789+/".toList.map (fun c => UInt8.ofNat c.toNat)

/-- `text` stands for `b` and the left over bits `extra`: it consists of characters of the alphabet, which stand for
six bits each, and enough `=` (character 61) to make the length a multiple of four. All the bits together are those of `b`
followed by `extra`, too few for one more character. -/
def Base64 (text b : Bytes) (extra : List Bool) : Prop :=
  ∃ (chars : Bytes) (sextets : List Nat) (k : Nat), text = chars ++ List.replicate k 61 ∧
    List.Forall₂ (fun c n => base64Alphabet[n]? = some c) chars sextets ∧
    k < 4 ∧ text.length % 4 = 0 ∧
    sextets.flatMap (bits 6) = b.flatMap (fun x => bits 8 x.toNat) ++ extra ∧ extra.length < 6

/-- `text`, without its line breaks (carriage returns and newlines), is base64 of `b`. The left over bits may be anything. -/
def IsBase64 (text b : Bytes) : Prop :=
  ∃ extra, Base64 (text.filter (fun c => c ≠ 10 ∧ c ≠ 13)) b extra

/-- `text` is the base64 of `b` that the RFC's encoder writes: no line breaks, and the left over bits are zero. -/
def CanonicalBase64 (text b : Bytes) : Prop := ∃ n, Base64 text b (List.replicate n false)

end Migp.Spec
