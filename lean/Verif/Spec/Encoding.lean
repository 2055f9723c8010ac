import Verif.Go.Basic
/-!
# Specifications of the encodings, independent of the model
-/
namespace Migp.Spec

/-- A 16-bit big-endian length field (for `n < 65536`). -/
def len16 (n : Nat) : Bytes := [UInt8.ofNat (n / 256), UInt8.ofNat (n % 256)]

/-- The documented credential format: length, username, length, password. -/
def credential (username password : Bytes) : Bytes :=
  len16 username.length ++ username ++ (len16 password.length ++ password)

/-- Read one length-prefixed field: the field and what follows it. -/
def parseField : Bytes → Option (Bytes × Bytes)
  | a :: b :: rest =>
    let n := a.toNat * 256 + b.toNat
    if n ≤ rest.length then some (rest.take n, rest.drop n) else none
  | _ => none

/-- Read a credential: username, password, and what follows. -/
def parseCredential (data : Bytes) : Option (Bytes × Bytes × Bytes) := do
  let (u, rest) ← parseField data
  let (p, rest) ← parseField rest
  some (u, p, rest)

/-- The bits of a byte, most significant first. -/
def bitsOfByte (b : UInt8) : List Bool :=
  [b.toNat / 128 % 2 == 1, b.toNat / 64 % 2 == 1, b.toNat / 32 % 2 == 1, b.toNat / 16 % 2 == 1,
   b.toNat / 8 % 2 == 1, b.toNat / 4 % 2 == 1, b.toNat / 2 % 2 == 1, b.toNat % 2 == 1]

/-- The bits of a byte string, most significant bit of the first byte first. -/
def bitsOf (b : Bytes) : List Bool := b.flatMap bitsOfByte

/-- The number written in binary by a list of bits, most significant first. -/
def natOfBits (bits : List Bool) : Nat := bits.foldl (fun n b => 2 * n + (if b then 1 else 0)) 0

/-- A lower-case hexadecimal digit. -/
def IsLowerHex (c : UInt8) : Prop := (48 ≤ c.toNat ∧ c.toNat ≤ 57) ∨ (97 ≤ c.toNat ∧ c.toNat ≤ 102)

/-- A hexadecimal digit in either case. -/
def IsHex (c : UInt8) : Prop := IsLowerHex c ∨ (65 ≤ c.toNat ∧ c.toNat ≤ 70)

instance : DecidablePred IsLowerHex := fun c => by unfold IsLowerHex; exact inferInstance
instance : DecidablePred IsHex := fun c => by unfold IsHex; exact inferInstance

/-- The value of a hexadecimal digit. -/
def hexValue (c : UInt8) : Nat :=
  if c.toNat ≤ 57 then c.toNat - 48 else if c.toNat ≤ 70 then c.toNat - 55 else c.toNat - 87

/-- The number written by a string of hexadecimal digits. -/
def natOfHex (s : GoString) : Nat := s.foldl (fun n c => 16 * n + hexValue c) 0

end Migp.Spec
