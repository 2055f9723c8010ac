import Verif.Go.Endian
import Verif.Go.Hex
/-!
# `pkg/migp/common.go`
-/
namespace Migp

/-- common.go:16 -/
def DefaultMIGPVersion : UInt16 := 1
/-- common.go:21 -/
def DefaultBucketIDBitSize : Int := 20
/-- hasher.go:13 -/
def BucketHasherSHA256 : UInt16 := 0x0001
/-- slowhasher.go:13 -/
def SlowHasherNull : UInt16 := 0x0000
/-- slowhasher.go:14 -/
def SlowHasherScrypt : UInt16 := 0x0001
/-- encryptor.go:16 -/
def BucketEncryptorHKDFSHA256 : UInt16 := 0x0001
/-- common.go:27, `uint16(oprf.OPRFP256)` -/
def DefaultOPRFSuite : UInt16 := 0x0003
/-- common.go:31 -/
def CtxtKeyCheckSize : Nat := 20
/-- common.go:36 -/
def HeaderSize : Nat := CtxtKeyCheckSize + 5
/-- common.go:40 -/
def OprfInfo : Bytes := ascii "MIGP oprf info"

/-- common.go:44-51. `BucketIDBitSize` is a Go `int`. -/
structure Config where
  version : UInt16
  bucketIDBitSize : Int
  bucketHasherID : UInt16
  slowHasherID : UInt16
  bucketEncryptorID : UInt16
  oprfSuite : UInt16
deriving DecidableEq, Repr

/-- common.go:54-63 -/
def DefaultConfig : Config where
  version := DefaultMIGPVersion
  bucketHasherID := BucketHasherSHA256
  bucketEncryptorID := BucketEncryptorHKDFSHA256
  slowHasherID := SlowHasherScrypt
  oprfSuite := DefaultOPRFSuite
  bucketIDBitSize := DefaultBucketIDBitSize

/-- common.go:66, `type MetadataType uint8` -/
abbrev MetadataType := UInt8
/-- common.go:70 (iota = 0) -/
def MetadataDummy : MetadataType := 0
/-- common.go:72 -/
def MetadataBreachedPassword : MetadataType := 1
/-- common.go:74 -/
def MetadataSimilarPassword : MetadataType := 2
/-- common.go:76 -/
def MetadataBreachedUsername : MetadataType := 3

/-- common.go:80-93 -/
def MetadataType.toString (mt : MetadataType) : String :=
  if mt = MetadataDummy then "dummy metadata"
  else if mt = MetadataBreachedPassword then "breached password"
  else if mt = MetadataSimilarPassword then "similar password"
  else if mt = MetadataBreachedUsername then "breached username"
  else "Unknown metadata type"

/-- common.go:96-102 -/
def MetadataType.valid (mt : MetadataType) : Bool :=
  mt = MetadataDummy || mt = MetadataBreachedPassword || mt = MetadataSimilarPassword ||
    mt = MetadataBreachedUsername

/-- common.go:121, `type BreachStatus uint8` -/
abbrev BreachStatus := UInt8
/-- common.go:125 -/
def NotInBreach : BreachStatus := 0
/-- common.go:127 -/
def InBreach : BreachStatus := 1
/-- common.go:130 -/
def SimilarInBreach : BreachStatus := 2
/-- common.go:133 -/
def UsernameInBreach : BreachStatus := 3

/-- common.go:105-116 -/
def MetadataType.toBreachStatus (mt : MetadataType) : BreachStatus :=
  if mt = MetadataBreachedPassword then InBreach
  else if mt = MetadataSimilarPassword then SimilarInBreach
  else if mt = MetadataBreachedUsername then UsernameInBreach
  else NotInBreach

/-- common.go:137-150 -/
def BreachStatus.toString (bs : BreachStatus) : String :=
  if bs = NotInBreach then "password not in breach"
  else if bs = InBreach then "password in breach"
  else if bs = SimilarInBreach then "similar password in breach"
  else if bs = UsernameInBreach then "username in breach"
  else "unknown breach status"

/-- common.go:156-166. `uint16(len(x))` truncates. -/
def serializeUsernamePassword (username password : Bytes) : Res Bytes :=
  if username.length > 65536 ∨ password.length > 65536 then .panic .lengthOverflow
  else do
    let buf := makeBytes (4 + username.length + password.length)
    let buf ← putUint16At buf 0 (UInt16.ofNat username.length)
    let buf ← copyAt buf 2 username
    let buf ← putUint16At buf (2 + username.length) (UInt16.ofNat password.length)
    copyAt buf (4 + username.length) password

/-- common.go:170-177. Go evaluates `bucketID >> (32 - bitSize) & ((1 << bitSize) - 1)` as
`(bucketID >> (32 - bitSize)) & ((1 << bitSize) - 1)`, the untyped constant 1 being a `uint32`. -/
def bucketHashToID (bucketHash : Bytes) (bitSize : Int) : Res UInt32 :=
  if bitSize > 32 then .panic .bucketBitSize
  else do
    let bucketID ← beUint32 bucketHash
    let hi ← goShr32 bucketID (32 - bitSize)
    let one ← goShl32 1 bitSize
    .ok (hi &&& (one - 1))

/-- common.go:180-184. (`PutUint32` on a 4-byte buffer cannot panic.) -/
def BucketIDToHex (bucketID : UInt32) : GoString := hexEncode (be32 bucketID)

end Migp
