import Verif.Spec.Hkdf
/-!
# Buckets as lists of entries
-/
namespace Migp.Spec

/-- The bytes of an entry in their fields, whatever they mean: 20 bytes of key tag, a masked flag and
a masked body. -/
structure RawEntry where
  tag : Bytes
  flag : UInt8
  body : Bytes
deriving DecidableEq

/-- The four bytes of a big-endian 32-bit length. -/
def len32 (n : Nat) : Bytes :=
  [UInt8.ofNat (n / 2 ^ 24), UInt8.ofNat (n / 2 ^ 16), UInt8.ofNat (n / 2 ^ 8), UInt8.ofNat n]

/-- An entry on the wire. -/
def RawEntry.bytes (e : RawEntry) : Bytes := e.tag ++ [e.flag] ++ len32 e.body.length ++ e.body

/-- Fields of the right size. -/
def RawEntry.WF (e : RawEntry) : Prop := e.tag.length = 20 ∧ e.body.length < 2 ^ 32

/-- A bucket holding these entries. -/
def bucket (es : List RawEntry) : Bytes := (es.map RawEntry.bytes).flatten

/-- What is found when an entry is opened with a secret: the flag and the body unmasked with the HKDF
pads. -/
def RawEntry.open (sha : Bytes → Bytes) (secret : Bytes) (e : RawEntry) : UInt8 × Bytes :=
  (((xor (List.replicate 20 0 ++ [e.flag]) (hkdf sha secret (ascii "MIGP derive pad header") [] 21))[20]?).getD 0,
   xor e.body (hkdf sha secret (ascii "MIGP derive pad body") [] e.body.length))

/-- The first entry whose tag is that of the secret. -/
def firstMatch (sha : Bytes → Bytes) (secret : Bytes) (es : List RawEntry) : Option RawEntry :=
  es.find? (fun e => e.tag = keyTag sha secret)

end Migp.Spec
