import Verif.Go.Basic
/-!
# RFC 2104 HMAC, RFC 5869 HKDF and the entry format of encryptor.go:49, stated directly
-/
namespace Migp.Spec

/-- RFC 2104: the key as a block of 64 bytes. A key longer than a block is hashed first; byte `i` is that of the key, or zero
past its end. -/
def hmacBlock (sha : Bytes → Bytes) (key : Bytes) : Bytes :=
  (List.range 64).map (fun i => (if key.length ≤ 64 then key else sha key).getD i 0)

/-- RFC 2104: `H(K XOR opad, H(K XOR ipad, text))`, with `ipad` the byte `0x36` and `opad` the byte `0x5C` repeated 64 times. -/
def hmac (sha : Bytes → Bytes) (key text : Bytes) : Bytes :=
  sha (List.zipWith (· ^^^ ·) (hmacBlock sha key) (List.replicate 64 0x5C) ++
    sha (List.zipWith (· ^^^ ·) (hmacBlock sha key) (List.replicate 64 0x36) ++ text))

/-- RFC 5869: `T(0) = ""`, `T(i+1) = HMAC(PRK, T(i) | info | i+1)`. -/
def hkdfT (sha : Bytes → Bytes) (prk info : Bytes) : Nat → Bytes
  | 0 => []
  | i + 1 => hmac sha prk (hkdfT sha prk info i ++ info ++ [UInt8.ofNat (i + 1)])

/-- RFC 5869: the first `L` bytes of `T(1) | T(2) | ... | T(255)`, with
`PRK = HMAC(salt, secret)`. -/
def hkdf (sha : Bytes → Bytes) (secret salt info : Bytes) (L : Nat) : Bytes :=
  (((List.range 255).map (fun i => hkdfT sha (hmac sha salt secret) info (i + 1))).flatten).take L

/-- XOR of two strings of the same length. -/
def xor (a b : Bytes) : Bytes := List.zipWith (· ^^^ ·) a b

/-- The entry format documented at encryptor.go:49:
`XOR(<20 zero bytes> | <1-byte flag>, <headerPad>) | <4-byte body length> | XOR(<body>, <bodyPad>)`. -/
def entry (sha : Bytes → Bytes) (secret : Bytes) (flag : UInt8) (body : Bytes) : Bytes :=
  xor (List.replicate 20 0 ++ [flag]) (hkdf sha secret (ascii "MIGP derive pad header") [] 21) ++
  [UInt8.ofNat (body.length / 2 ^ 24), UInt8.ofNat (body.length / 2 ^ 16),
   UInt8.ofNat (body.length / 2 ^ 8), UInt8.ofNat body.length] ++
  xor body (hkdf sha secret (ascii "MIGP derive pad body") [] body.length)

/-- The 20-byte key tag of a secret: what the encrypted all-zero key check looks like. -/
def keyTag (sha : Bytes → Bytes) (secret : Bytes) : Bytes :=
  hkdf sha secret (ascii "MIGP derive pad header") [] 20

end Migp.Spec
