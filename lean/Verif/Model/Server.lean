import Verif.Model.Client
/-!
# `pkg/migp/server.go` (JSON methods are in `Verif.Model.Json`)
-/
namespace Migp

/-- server.go:22-31. `suite` stands for `oprfServer`. -/
structure Server where
  version : UInt16
  bucketIDBitSize : Int
  bucketHasher : BucketHasher
  bucketEncryptor : BucketEncryptor
  slowHasher : SlowHasher
  suite : Suite
  oprfSuite : UInt16
  privateKey : PrivateKey

/-- server.go:35-38. (A nil `PrivateKey` pointer is not modelled.) -/
structure ServerConfig extends Config where
  privateKey : PrivateKey
deriving DecidableEq, Repr

/-- server.go:74-86 -/
def Server.config (s : Server) : ServerConfig where
  version := s.version
  bucketIDBitSize := s.bucketIDBitSize
  bucketHasherID := s.bucketHasher.id
  slowHasherID := s.slowHasher.id
  bucketEncryptorID := s.bucketEncryptor.id
  oprfSuite := s.oprfSuite
  privateKey := s.privateKey

/-- server.go:89-101, for the freshly generated key `key`. -/
def DefaultServerConfig (key : PrivateKey) : ServerConfig :=
  { DefaultConfig with privateKey := key }

/-- server.go:105-135. `oprf.NewServer(id, key)` fails iff the suite is unsupported or the key is not
acceptable for it. -/
def NewServer (E : Ext) (cfg : ServerConfig) : Res Server := do
  let bucketHasher ← NewBucketHasher cfg.bucketHasherID
  let slowHasher ← NewSlowHasher cfg.slowHasherID
  let bucketEncryptor ← NewBucketEncryptor cfg.bucketEncryptorID
  match E.suites cfg.oprfSuite with
  | none => .err .oprfSuite
  | some suite =>
    if E.keyOK cfg.oprfSuite cfg.privateKey then
      .ok { version := cfg.version, bucketIDBitSize := cfg.bucketIDBitSize, bucketHasher,
            bucketEncryptor, slowHasher, suite, oprfSuite := cfg.oprfSuite,
            privateKey := cfg.privateKey }
    else .err .oprfSuite

/-- server.go:138-141 -/
def Server.deriveBucketEntryKey (E : Ext) (s : Server) (username password : Bytes) : Res Bytes := do
  let ser ← serializeUsernamePassword username password
  let input ← s.slowHasher.hash E ser
  s.suite.fullEvaluate s.privateKey input OprfInfo

/-- server.go:144-146 -/
def Server.bucketID (E : Ext) (s : Server) (username : Bytes) : Res UInt32 := do
  let h ← s.bucketHasher.hash E username
  bucketHashToID h s.bucketIDBitSize

/-- Go `string(x)` for `x` of an integer type with value below 256: the UTF-8 encoding of the code
point `x`. -/
def runeString (x : UInt8) : Bytes :=
  if x.toNat < 128 then [x] else [UInt8.ofNat (192 + x.toNat / 64), UInt8.ofNat (128 + x.toNat % 64)]

/-- server.go:152-162 -/
def Server.encryptBucketEntry (E : Ext) (s : Server) (username password : Bytes)
    (metadataFlag : MetadataType) (metadata : Bytes) : Res Bytes :=
  if !MetadataType.valid metadataFlag then .err (.invalidFlag (runeString metadataFlag))
  else do
    let key ← s.deriveBucketEntryKey E username password
    s.bucketEncryptor.encrypt E key metadataFlag metadata

/-- server.go:211-213: the caller's bucket store. -/
abbrev Getter := GoString → Res Bytes

/-- server.go:222-250. `uint16(request.Version)` truncates. One element is evaluated, so the check at
line 231 never fails. -/
def Server.handleRequest (s : Server) (request : ClientRequest) (kv : Getter) :
    Res ServerResponse :=
  if UInt16.ofNat request.version.toNat ≠ s.version then .err .versionMismatch
  else do
    let evaluated ← s.suite.evaluate s.privateKey request.blindElement OprfInfo
    match hexDecode request.bucketID with
    | none => .err .bucketIDHex
    | some _ =>
      let bucketContents ← kv request.bucketID
      .ok { version := request.version, evaluatedElement := evaluated, bucketContents }

/-- server.go:173-185. Writes to a `bytes.Buffer` do not fail. -/
def ServerResponse.marshalBinary (r : ServerResponse) : Res Bytes :=
  .ok (be32 r.version ++ r.evaluatedElement ++ r.bucketContents)

/-- `binary.Read(buffer, binary.BigEndian, &v)` for `v uint32`: `io.ReadFull` of four bytes. Returns
the value and the rest of the buffer. -/
def readUint32 (data : Bytes) : Res (UInt32 × Bytes) :=
  match data with
  | a :: b :: c :: d :: rest => do
    let v ← beUint32 [a, b, c, d]
    .ok (v, rest)
  | [] => .err .eof
  | _ => .err .unexpectedEOF

/-- `(*bytes.Buffer).Read(p)` with `len(p) = n`: the number of bytes copied, `p`'s new prefix and the
rest; `io.EOF` if the buffer is empty and `p` is not. -/
def bufferRead (buf : Bytes) (n : Nat) : Res (Nat × Bytes × Bytes) :=
  if buf = [] ∧ n ≠ 0 then .err .eof
  else .ok (min n buf.length, buf.take n, buf.drop n)

/-- server.go:189-206. Returns the unmarshalled response (the receiver's fields on success). The
element length is always that of the default suite. -/
def ServerResponse.unmarshalBinary (data : Bytes) : Res ServerResponse := do
  let (version, rest) ← readUint32 data
  let (n, element, rest) ← bufferRead rest defaultElementLength
  if n ≠ defaultElementLength then .err .elementTooShort
  else .ok { version, evaluatedElement := element, bucketContents := rest }

end Migp
