import Verif.Go.Ext
import Verif.Model.Common
/-!
# `pkg/migp/encryptor.go`
-/
namespace Migp

/-- encryptor.go:20 -/
def DerivePadHeaderSalt : Bytes := ascii "MIGP derive pad header"
/-- encryptor.go:21 -/
def DerivePadBodySalt : Bytes := ascii "MIGP derive pad body"

/-- encryptor.go:25-33: the only implementation of the `BucketEncryptor` interface. -/
inductive BucketEncryptor where
  | hkdfSHA256
deriving DecidableEq, Repr

/-- encryptor.go:37-39 -/
def NewHKDFSHA256BucketEncryptor : BucketEncryptor := .hkdfSHA256

/-- encryptor.go:42-44 -/
def BucketEncryptor.id : BucketEncryptor → UInt16
  | .hkdfSHA256 => BucketEncryptorHKDFSHA256

/-- encryptor.go:143-150 -/
def NewBucketEncryptor (id : UInt16) : Res BucketEncryptor :=
  if id = BucketEncryptorHKDFSHA256 then .ok NewHKDFSHA256BucketEncryptor
  else .err .unsupportedBucketEncryptor

/-- encryptor.go:116-125. The loop over `range b1` is `zipWith` on slices of equal length. -/
def xorBytes (b1 b2 : Bytes) : Res Bytes :=
  if b1.length ≠ b2.length then .panic .xorMismatch
  else .ok (List.zipWith (· ^^^ ·) b1 b2)

/-- encryptor.go:129-140 -/
def derivePad (E : Ext) (secret salt : Bytes) (length : Nat) : Res Bytes := do
  let (n, pad) ← hkdfNewRead E.sha256 secret salt length
  if n ≠ length then .err .hkdfShort
  else .ok pad

/-- encryptor.go:50-74 -/
def BucketEncryptor.encrypt (E : Ext) : BucketEncryptor → (secret : Bytes) → (flag : MetadataType) →
    (body : Bytes) → Res Bytes
  | .hkdfSHA256, secret, flag, body => do
    let headerPad ← derivePad E secret DerivePadHeaderSalt (CtxtKeyCheckSize + 1)
    let header := makeBytes (CtxtKeyCheckSize + 1)
    let header ← setIndex header CtxtKeyCheckSize flag
    let encryptedHeader ← xorBytes header headerPad
    let bodyPad ← derivePad E secret DerivePadBodySalt body.length
    let encryptedBody ← xorBytes body bodyPad
    let ciphertext := makeBytes (encryptedHeader.length + 4 + encryptedBody.length)
    let ciphertext ← copyAt ciphertext 0 encryptedHeader
    let ciphertext ← putUint32At ciphertext encryptedHeader.length
      (UInt32.ofNat encryptedBody.length)
    copyAt ciphertext (encryptedHeader.length + 4) encryptedBody

/-- encryptor.go:78-97. Returns (keyCheck, flag, bodyLength); `subtle.ConstantTimeCompare(x, y) == 1`
is equality of the slices. `int(uint32)` is exact on 64-bit platforms. -/
def BucketEncryptor.decryptHeader (E : Ext) : BucketEncryptor → (secret : Bytes) →
    (ciphertext : Bytes) → Res (Bool × MetadataType × Nat)
  | .hkdfSHA256, secret, ciphertext =>
    if ciphertext.length < HeaderSize then .err .headerTooShort
    else do
      let headerPad ← derivePad E secret DerivePadHeaderSalt (CtxtKeyCheckSize + 1)
      let padKey ← slice headerPad 0 CtxtKeyCheckSize
      let ctKey ← slice ciphertext 0 CtxtKeyCheckSize
      let keyCheck := decide (padKey = ctKey)
      let padFlag ← index headerPad CtxtKeyCheckSize
      let ctFlag ← index ciphertext CtxtKeyCheckSize
      let flag := padFlag ^^^ ctFlag
      let lenBytes ← slice ciphertext (CtxtKeyCheckSize + 1) (CtxtKeyCheckSize + 5)
      let bodyLength ← beUint32 lenBytes
      .ok (keyCheck, flag, bodyLength.toNat)

/-- encryptor.go:102-112 -/
def BucketEncryptor.decryptBody (E : Ext) : BucketEncryptor → (secret : Bytes) →
    (ciphertext : Bytes) → Res Bytes
  | .hkdfSHA256, secret, ciphertext => do
    let bodyPad ← derivePad E secret DerivePadBodySalt ciphertext.length
    xorBytes ciphertext bodyPad

end Migp
