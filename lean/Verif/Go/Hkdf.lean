import Verif.Go.Basic
/-!
# HMAC and HKDF over an arbitrary 32-byte hash

`crypto/hmac` and `golang.org/x/crypto/hkdf` (v0.0.0-20211117183948) instantiated with SHA-256's
block size 64 and output size 32. The hash itself is a parameter `sha`.
-/
namespace Migp

/-- `sha256.Size`. -/
def sha256Size : Nat := 32
/-- `sha256.BlockSize`. -/
def sha256BlockSize : Nat := 64

/-- `hmac.New(sha256.New, key)` … `Sum`: `H((K ^ opad) | H((K ^ ipad) | msg))`, keys longer than a
block being hashed first and then zero-padded. -/
def hmac (sha : Bytes → Bytes) (key msg : Bytes) : Bytes :=
  let k := if key.length > sha256BlockSize then sha key else key
  let k := k ++ List.replicate (sha256BlockSize - k.length) 0
  sha (k.map (· ^^^ 0x5c) ++ sha (k.map (· ^^^ 0x36) ++ msg))

/-- `hkdf.Extract(sha256.New, secret, salt)`: HMAC keyed with the salt. (A nil salt is replaced by
32 zero bytes in the library, which gives the same HMAC; the code always passes a salt.) -/
def hkdfExtract (sha : Bytes → Bytes) (secret salt : Bytes) : Bytes := hmac sha salt secret

/-- The filling loop of `(*hkdf).Read`: `T(i) = HMAC(prk, T(i-1) | info | byte(i))`, copied into the
output until `need` bytes have been produced. The counter is a byte. -/
def hkdfFill (sha : Bytes → Bytes) (prk info : Bytes) (prev : Bytes) (counter : UInt8)
    (need : Nat) : Bytes :=
  if _h : need = 0 then []
  else
    let t := hmac sha prk (prev ++ info ++ [counter])
    t.take need ++ hkdfFill sha prk info t (counter + 1) (need - sha256Size)
termination_by need
decreasing_by simp only [sha256Size]; omega

/-- `r := hkdf.New(sha256.New, secret, salt, nil); n, err := r.Read(p)` with `len(p) = need`, on the
fresh reader (counter 1, empty buffer): the capacity check
`remains := len(f.buf) + int(255-f.counter+1)*f.size`, then the filling loop. Returns `n` and the
contents of `p`. -/
def hkdfNewRead (sha : Bytes → Bytes) (secret salt : Bytes) (need : Nat) : Res (Nat × Bytes) :=
  let prk := hkdfExtract sha secret salt
  let counter : UInt8 := 1
  let remains := 0 + (255 - counter + 1).toNat * sha256Size
  if remains < need then .err .hkdfEntropy
  else .ok (need, hkdfFill sha prk [] [] counter need)

end Migp
