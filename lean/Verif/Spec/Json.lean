import Verif.Go.JsonStruct
import Verif.Model.Json
import Verif.Spec.Base64
import Mathlib.Data.List.Forall2
/-!
# What decoding a JSON object into a struct of this package means

A small vocabulary, independent of the decoder: which keys name a field, which values a field accepts, and
'the last acceptable member wins'.
-/
namespace Migp.Spec
open Migp.Json

/-- The byte `b` is the ASCII letter or other byte `a`, in either case. -/
def SameLetter (a b : UInt8) : Prop :=
  a = b ∨ (65 ≤ a.toNat ∧ a.toNat ≤ 90 ∧ b.toNat = a.toNat + 32) ∨
    (65 ≤ b.toNat ∧ b.toNat ≤ 90 ∧ a.toNat = b.toNat + 32)

/-- `key` spells the ASCII name `name` up to case: letter by letter, where K may also be the Kelvin sign
(U+212A) and S the long s (U+017F). -/
inductive SameName : GoString → GoString → Prop
  | nil : SameName [] []
  | cons {a b : UInt8} {name key : GoString} : SameLetter a b → SameName name key → SameName (a :: name) (b :: key)
  | kelvin {a : UInt8} {name key : GoString} : SameLetter a 107 → SameName name key →
      SameName (a :: name) (0xE2 :: 0x84 :: 0xAA :: key)
  | longS {a : UInt8} {name key : GoString} : SameLetter a 115 → SameName name key →
      SameName (a :: name) (0xC5 :: 0xBF :: key)

/-- The value of a string of decimal digits. -/
inductive IsDecimal : Bytes → Nat → Prop
  | one {d : UInt8} : 48 ≤ d.toNat → d.toNat ≤ 57 → IsDecimal [d] (d.toNat - 48)
  | more {ds : Bytes} {n : Nat} {d : UInt8} : IsDecimal ds n → 48 ≤ d.toNat → d.toNat ≤ 57 →
      IsDecimal (ds ++ [d]) (10 * n + (d.toNat - 48))

/-- `v` is a number without sign, point and exponent, of value `n ≤ max`. -/
def IsUint (max : Nat) (v : JVal) (n : Nat) : Prop := ∃ lit, v = .num lit ∧ IsDecimal lit n ∧ n ≤ max

/-- `v` is a number without point and exponent, whose value `n` a Go `int` can hold. -/
def IsInt (v : JVal) (n : Int) : Prop :=
  ∃ lit m, IsDecimal lit m ∧
    ((v = .num lit ∧ n = m ∧ m ≤ 9223372036854775807) ∨
     (v = .num (45 :: lit) ∧ n = -m ∧ m ≤ 9223372036854775808))

/-- `v` is a string. -/
def IsString (v : JVal) (s : GoString) : Prop := v = .str s

/-- `v` stands for the bytes `b`: a string with base64 in it, an array of numbers from 0 to 255, or `null`, which
stands for no bytes. -/
def IsBytes (v : JVal) (b : Bytes) : Prop :=
  (v = .null ∧ b = []) ∨ (∃ s, v = .str s ∧ IsBase64 s b) ∨
    (∃ es, v = .arr es ∧ List.Forall₂ (fun e (x : UInt8) => IsUint 255 e x.toNat) es b)

/-- `v` is an array with elements that are not numbers from 0 to 255. -/
def MixedArray (v : JVal) : Prop := ∃ es, v = .arr es ∧ ∃ e ∈ es, ¬ ∃ n, IsUint 255 e n

/-- `v` is not something that can be read as bytes at all: not `null`, not base64, not an array of numbers from 0 to
255 and `null`s. -/
def NotBytes (v : JVal) : Prop :=
  (¬ ∃ b, IsBytes v b) ∧ ∀ es, v = .arr es → ∃ e ∈ es, e ≠ .null ∧ ¬ ∃ n, IsUint 255 e n

/-- The last member that is named `name` and has an acceptable value gives the new value; without such a member
the old value stays. -/
def LastWins {A : Type} (name : GoString) (acc : JVal → A → Prop) (ms : List (GoString × JVal)) (old new : A) :
    Prop :=
  (∃ before k v after, ms = before ++ (k, v) :: after ∧ SameName name k ∧ acc v new ∧
    ∀ m ∈ after, SameName name m.1 → ¬ ∃ a, acc m.2 a) ∨
  ((∀ m ∈ ms, SameName name m.1 → ¬ ∃ a, acc m.2 a) ∧ new = old)

/-- Some member is named `name` but its value is neither acceptable nor `null`. -/
def IllTyped {A : Type} (name : GoString) (acc : JVal → A → Prop) (ms : List (GoString × JVal)) : Prop :=
  ∃ m ∈ ms, SameName name m.1 ∧ m.2 ≠ .null ∧ ¬ ∃ a, acc m.2 a

/-- The members of a configuration: its numbers, in decimal. -/
def IsConfigMembers (c : Config) (ms : List (GoString × JVal)) : Prop :=
  ∃ version bits hasher slow enc suite,
    ms = [(ascii "version", .num version), (ascii "bucketIDBitSize", .num bits), (ascii "bucketHasher", .num hasher),
      (ascii "slowHasher", .num slow), (ascii "bucketEncryptor", .num enc), (ascii "oprfSuite", .num suite)] ∧
    IsDecimal version c.version.toNat ∧ IsInt (.num bits) c.bucketIDBitSize ∧
    IsDecimal hasher c.bucketHasherID.toNat ∧ IsDecimal slow c.slowHasherID.toNat ∧
    IsDecimal enc c.bucketEncryptorID.toNat ∧ IsDecimal suite c.oprfSuite.toNat

end Migp.Spec
