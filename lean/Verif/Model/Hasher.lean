import Verif.Go.Ext
import Verif.Model.Common
/-!
# `pkg/migp/hasher.go` and `pkg/migp/slowhasher.go`
-/
namespace Migp

/-- hasher.go:15 -/
def BucketHashSalt : GoString := ascii "MIGP bucket"

/-- hasher.go:20-28: the only implementation of the `BucketHasher` interface. -/
inductive BucketHasher where
  | sha256 (salt : GoString)
deriving DecidableEq, Repr

/-- hasher.go:32-34 -/
def NewSHA256BucketHasher : BucketHasher := .sha256 BucketHashSalt

/-- hasher.go:37-39 -/
def BucketHasher.id : BucketHasher → UInt16
  | .sha256 _ => BucketHasherSHA256

/-- hasher.go:42-54 -/
def BucketHasher.hash (E : Ext) : BucketHasher → Bytes → Res Bytes
  | .sha256 salt, buf =>
    if salt.length > 65536 ∨ buf.length > 65536 then .panic .hasherInput
    else do
      let acc := makeBytes (2 + salt.length + 2 + buf.length)
      let acc ← putUint16At acc 0 (UInt16.ofNat salt.length)
      let acc ← copyAt acc 2 salt
      let acc ← putUint16At acc (2 + salt.length) (UInt16.ofNat buf.length)
      let acc ← copyAt acc (2 + salt.length + 2) buf
      .ok (E.sha256 acc)

/-- hasher.go:57-64 -/
def NewBucketHasher (id : UInt16) : Res BucketHasher :=
  if id = BucketHasherSHA256 then .ok NewSHA256BucketHasher else .err .unsupportedBucketHasher

/-- slowhasher.go:18 -/
def SlowHashSalt : GoString := ascii "MIGP slow hash"
/-- slowhasher.go:19 -/
def SlowHashLen : Nat := 32
/-- slowhasher.go:20 -/
def ScryptN : Nat := 16384
/-- slowhasher.go:21 -/
def Scryptr : Nat := 8
/-- slowhasher.go:22 -/
def Scryptp : Nat := 1

/-- slowhasher.go:26-38, 74: the implementations of the `SlowHasher` interface. -/
inductive SlowHasher where
  | null
  | scrypt (salt : GoString) (N r p L : Nat)
deriving DecidableEq, Repr

/-- slowhasher.go:46-54 -/
def NewScryptSlowHasher : SlowHasher := .scrypt SlowHashSalt ScryptN Scryptr Scryptp SlowHashLen

/-- slowhasher.go:77-79 -/
def NewNullSlowHasher : SlowHasher := .null

/-- slowhasher.go:57-59, 82-84 -/
def SlowHasher.id : SlowHasher → UInt16
  | .null => SlowHasherNull
  | .scrypt .. => SlowHasherScrypt

/-- slowhasher.go:62-71 (an error of `scrypt.Key` panics), 87-89 (the null hasher is the
identity). -/
def SlowHasher.hash (E : Ext) : SlowHasher → Bytes → Res Bytes
  | .null, buf => .ok buf
  | .scrypt salt N r p L, buf =>
    match scryptKey E buf salt N r p L with
    | .ok t => .ok t
    | .err _ => .panic .scryptParams
    | .panic x => .panic x

/-- slowhasher.go:92-101 -/
def NewSlowHasher (id : UInt16) : Res SlowHasher :=
  if id = SlowHasherNull then .ok NewNullSlowHasher
  else if id = SlowHasherScrypt then .ok NewScryptSlowHasher
  else .err .unsupportedSlowHasher

end Migp
