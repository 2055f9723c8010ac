import Verif.Go.Ext
import Verif.Spec.Encoding
/-!
# Specification of the protocol's values, independent of the model
-/
namespace Migp.Spec

/-- The slow hash selected by a (valid) identifier: 0 is the identity, 1 is scrypt with
N = 16384, r = 8, p = 1, a fixed salt and 32 bytes of output. -/
def slowHash (E : Ext) (id : UInt16) (x : Bytes) : Bytes :=
  if id = 0 then x else E.scryptCore x (ascii "MIGP slow hash") 16384 8 1 32

/-- A 16-bit length field that wraps at 65536. -/
def len16w (n : Nat) : Bytes := len16 (n % 65536)

/-- The credential encoding for components of up to 65536 bytes. -/
def credentialW (u p : Bytes) : Bytes := len16w u.length ++ u ++ (len16w p.length ++ p)

/-- The string whose SHA-256 selects the bucket of a username. -/
def bucketPreimage (u : Bytes) : Bytes :=
  len16w 11 ++ ascii "MIGP bucket" ++ (len16w u.length ++ u)

/-- The bucket number of a username: the first `bits` bits of the hash. -/
def bucketNumber (E : Ext) (bits : Nat) (u : Bytes) : Nat :=
  natOfBits ((bitsOf (E.sha256 (bucketPreimage u))).take bits)

/-- The OPRF input for a credential. -/
def oprfInput (E : Ext) (slowID : UInt16) (u p : Bytes) : Bytes := slowHash E slowID (credentialW u p)

/-- The info string of common.go:40. -/
def info : Bytes := ascii "MIGP oprf info"

/-- The scalar `key + HashToScalar(info)` whose inverse the server multiplies by. -/
def tweak (S : Suite) (key : PrivateKey) : ZMod S.q := (key.k : ZMod S.q) + S.hashToScalar info

/-- The 3HashSDHI OPRF: `H(x, info, (1/(k + H'(info))) * H''(x))`. -/
def oprf (S : Suite) (key : PrivateKey) (x : Bytes) : Bytes :=
  S.finalizeHash x info (S.ser ((tweak S key)⁻¹ * S.hashToElement x))

/-- An even-length string of hexadecimal digits of either case. -/
def IsHexString (s : GoString) : Prop := s.length % 2 = 0 ∧ ∀ c ∈ s, IsHex c

end Migp.Spec
