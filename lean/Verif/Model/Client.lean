import Verif.Model.Hasher
import Verif.Model.Encryptor
/-!
# `pkg/migp/client.go` (without HTTP; see `Verif.Model.Http` for `Query`)
-/
namespace Migp

/-- client.go:18-26. `suite` stands for `oprfClient`. -/
structure Client where
  version : UInt16
  bucketIDBitSize : Int
  bucketHasher : BucketHasher
  bucketEncryptor : BucketEncryptor
  slowHasher : SlowHasher
  suite : Suite
  oprfSuite : UInt16

/-- client.go:30-34 -/
structure ClientRequest where
  version : UInt32
  bucketID : GoString
  blindElement : Bytes
deriving DecidableEq, Repr

/-- server.go:165-169 -/
structure ServerResponse where
  version : UInt32
  evaluatedElement : Bytes
  bucketContents : Bytes
deriving DecidableEq, Repr

/-- client.go:39-42. The `oprf.ClientRequest` holds the input and the blind. -/
structure ClientRequestContext where
  client : Client
  input : Bytes
  blind : ZMod client.suite.q

/-- client.go:44-72. `oprf.NewClient(id)` fails iff the suite is unsupported. -/
def NewClient (E : Ext) (cfg : Config) : Res Client := do
  let bucketHasher ← NewBucketHasher cfg.bucketHasherID
  let slowHasher ← NewSlowHasher cfg.slowHasherID
  let bucketEncryptor ← NewBucketEncryptor cfg.bucketEncryptorID
  match E.suites cfg.oprfSuite with
  | none => .err .oprfSuite
  | some suite =>
    .ok { version := cfg.version, bucketIDBitSize := cfg.bucketIDBitSize, bucketHasher,
          bucketEncryptor, slowHasher, suite, oprfSuite := cfg.oprfSuite }

/-- client.go:75-77 -/
def Client.bucketID (E : Ext) (c : Client) (username : Bytes) : Res UInt32 := do
  let h ← c.bucketHasher.hash E username
  bucketHashToID h c.bucketIDBitSize

/-- client.go:81-104. The random blind is an argument; the library returns one blinded element per
input, so the check at line 89 never fails. -/
def Client.request (E : Ext) (c : Client) (username password : Bytes) (blind : ZMod c.suite.q) :
    Res (ClientRequest × ClientRequestContext) := do
  let ser ← serializeUsernamePassword username password
  let input ← c.slowHasher.hash E ser
  let blinded := c.suite.blind input blind
  let id ← c.bucketID E username
  .ok ({ version := UInt32.ofNat c.version.toNat, bucketID := BucketIDToHex id,
         blindElement := blinded },
       { client := c, input, blind })

/-- What `Finalize` and `Query` give back to the caller: the three Go return values, or a panic. -/
inductive Out where
  | ret (status : BreachStatus) (metadata : Option Bytes) (err : Option Err)
  | panic (p : Panic)
deriving DecidableEq, Repr

/-- client.go:125-153: the loop over bucket entries, from `offset`. The body is one iteration. -/
def finalizeLoop (E : Ext) (enc : BucketEncryptor) (secret contents : Bytes) (offset : Nat) : Out :=
  if _h : offset + HeaderSize > contents.length then
    .ret NotInBreach none none
  else
    match (sliceFrom contents offset) >>= (enc.decryptHeader E secret ·) with
    | .panic p => .panic p
    | .err e => .ret NotInBreach none (some e)
    | .ok (valid, flag, bodyLength) =>
      if offset + HeaderSize + bodyLength > contents.length then
        .ret NotInBreach none (some .bucketParse)
      else if valid then
        match (slice contents (offset + HeaderSize) (offset + HeaderSize + bodyLength)) >>=
            (enc.decryptBody E secret ·) with
        | .panic p => .panic p
        | .err e => .ret NotInBreach none (some e)
        | .ok metadata => .ret (MetadataType.toBreachStatus flag) (some metadata) none
      else
        finalizeLoop E enc secret contents (offset + HeaderSize + bodyLength)
termination_by contents.length - offset
decreasing_by
  simp only [HeaderSize, CtxtKeyCheckSize] at *
  omega

/-- client.go:109-154. `uint16(response.Version)` truncates. One input and one evaluated element, so
the library's length check and line 120 never fail. -/
def ClientRequestContext.finalize (E : Ext) (ctx : ClientRequestContext) (response : ServerResponse) :
    Out :=
  if UInt16.ofNat response.version.toNat ≠ ctx.client.version then
    .ret NotInBreach none (some .wrongVersionReply)
  else
    match ctx.client.suite.clientFinalize ctx.input ctx.blind response.evaluatedElement OprfInfo with
    | .panic p => .panic p
    | .err e => .ret NotInBreach none (some e)
    | .ok secret => finalizeLoop E ctx.client.bucketEncryptor secret response.bucketContents 0

end Migp
