import Verif.Model.Main
/-!
# The functions once more, with the operations they perform

The costly library calls that a function makes, in order: every function below is the one of the same name (without the `T`) with a
list of these calls in its result, and `Lemmas/Cost` proves that it has the same result. Running times themselves are not modelled.
-/
namespace Migp
open Json Bufio Http

/-- A call of a library or of the store. -/
inductive Op where
  /-- SHA-256 of the salted username of this length (hasher.go:52) -/
  | bucketHash (n : Nat)
  /-- `scrypt.Key` on so many bytes (slowhasher.go:63) -/
  | scrypt (n : Nat)
  /-- `oprfClient.Request` on one input of this length (client.go:84) -/
  | blind (n : Nat)
  /-- `oprfServer.Evaluate` on one element (server.go:227) -/
  | evaluate
  /-- `oprfClient.Finalize` on one element (client.go:114) -/
  | unblind
  /-- `oprfServer.FullEvaluate` on an input of this length (server.go:140) -/
  | fullEvaluate (n : Nat)
  /-- a pad of this length is asked of HKDF (encryptor.go:131-132) -/
  | pad (n : Nat)
  /-- `kv.Get(id)` (server.go:240) -/
  | get (id : GoString)
  /-- `kv.Append(id, value)` with a value of this length (cmd/server/server.go:62, 72, 84) -/
  | append (id : GoString) (n : Nat)
deriving DecidableEq, Repr

/-- A result with the calls made on the way. -/
structure Tr (α : Type) where
  ops : List Op
  out : Res α

/-- Calls made by two functions one after the other; the second is not called after an error or panic. -/
instance : Monad Tr where
  pure a := ⟨[], .ok a⟩
  bind x f :=
    match x.out with
    | .ok a => ⟨x.ops ++ (f a).ops, (f a).out⟩
    | .err e => ⟨x.ops, .err e⟩
    | .panic p => ⟨x.ops, .panic p⟩

/-- Functions without costly calls. -/
instance : MonadLift Res Tr := ⟨fun r => ⟨[], r⟩⟩

/-- encryptor.go:129-140 -/
def derivePadT (E : Ext) (secret salt : Bytes) (length : Nat) : Tr Bytes :=
  ⟨[.pad length], derivePad E secret salt length⟩

/-- encryptor.go:50-74 -/
def BucketEncryptor.encryptT (E : Ext) : BucketEncryptor → (secret : Bytes) → (flag : MetadataType) → (body : Bytes) → Tr Bytes
  | .hkdfSHA256, secret, flag, body => do
    let headerPad ← derivePadT E secret DerivePadHeaderSalt (CtxtKeyCheckSize + 1)
    let header := makeBytes (CtxtKeyCheckSize + 1)
    let header ← setIndex header CtxtKeyCheckSize flag
    let encryptedHeader ← xorBytes header headerPad
    let bodyPad ← derivePadT E secret DerivePadBodySalt body.length
    let encryptedBody ← xorBytes body bodyPad
    let ciphertext := makeBytes (encryptedHeader.length + 4 + encryptedBody.length)
    let ciphertext ← copyAt ciphertext 0 encryptedHeader
    let ciphertext ← putUint32At ciphertext encryptedHeader.length (UInt32.ofNat encryptedBody.length)
    copyAt ciphertext (encryptedHeader.length + 4) encryptedBody

/-- encryptor.go:78-97 -/
def BucketEncryptor.decryptHeaderT (E : Ext) : BucketEncryptor → (secret : Bytes) → (ciphertext : Bytes) →
    Tr (Bool × MetadataType × Nat)
  | .hkdfSHA256, secret, ciphertext =>
    if ciphertext.length < HeaderSize then ⟨[], .err .headerTooShort⟩
    else do
      let headerPad ← derivePadT E secret DerivePadHeaderSalt (CtxtKeyCheckSize + 1)
      let padKey ← slice headerPad 0 CtxtKeyCheckSize
      let ctKey ← slice ciphertext 0 CtxtKeyCheckSize
      let keyCheck := decide (padKey = ctKey)
      let padFlag ← index headerPad CtxtKeyCheckSize
      let ctFlag ← index ciphertext CtxtKeyCheckSize
      let flag := padFlag ^^^ ctFlag
      let lenBytes ← slice ciphertext (CtxtKeyCheckSize + 1) (CtxtKeyCheckSize + 5)
      let bodyLength ← beUint32 lenBytes
      pure (keyCheck, flag, bodyLength.toNat)

/-- encryptor.go:102-112 -/
def BucketEncryptor.decryptBodyT (E : Ext) : BucketEncryptor → (secret : Bytes) → (ciphertext : Bytes) → Tr Bytes
  | .hkdfSHA256, secret, ciphertext => do
    let bodyPad ← derivePadT E secret DerivePadBodySalt ciphertext.length
    xorBytes ciphertext bodyPad

/-- hasher.go:42-54: the length check comes before the hash. -/
def BucketHasher.hashT (E : Ext) : BucketHasher → Bytes → Tr Bytes
  | .sha256 salt, buf =>
    ⟨if salt.length > 65536 ∨ buf.length > 65536 then [] else [.bucketHash buf.length], (BucketHasher.sha256 salt).hash E buf⟩

/-- slowhasher.go:62-71, 87-89 -/
def SlowHasher.hashT (E : Ext) : SlowHasher → Bytes → Tr Bytes
  | .null, buf => ⟨[], SlowHasher.null.hash E buf⟩
  | .scrypt salt N r p L, buf => ⟨[.scrypt buf.length], (SlowHasher.scrypt salt N r p L).hash E buf⟩

/-- client.go:75-77 -/
def Client.bucketIDT (E : Ext) (c : Client) (username : Bytes) : Tr UInt32 := do
  let h ← c.bucketHasher.hashT E username
  bucketHashToID h c.bucketIDBitSize

/-- client.go:81-104 -/
def Client.requestT (E : Ext) (c : Client) (username password : Bytes) (blind : ZMod c.suite.q) :
    Tr (ClientRequest × ClientRequestContext) := do
  let ser ← serializeUsernamePassword username password
  let input ← c.slowHasher.hashT E ser
  let blinded ← (⟨[.blind input.length], .ok (c.suite.blind input blind)⟩ : Tr Bytes)
  let id ← c.bucketIDT E username
  pure ({ version := UInt32.ofNat c.version.toNat, bucketID := BucketIDToHex id, blindElement := blinded },
    { client := c, input, blind })

/-- client.go:122-153 -/
def finalizeLoopT (E : Ext) (enc : BucketEncryptor) (secret contents : Bytes) (offset : Nat) : List Op × Out :=
  if _h : offset + HeaderSize > contents.length then
    ([], .ret NotInBreach none none)
  else
    let header := (sliceFrom contents offset : Tr Bytes) >>= (enc.decryptHeaderT E secret ·)
    match header.out with
    | .panic p => (header.ops, .panic p)
    | .err e => (header.ops, .ret NotInBreach none (some e))
    | .ok (valid, flag, bodyLength) =>
      if offset + HeaderSize + bodyLength > contents.length then
        (header.ops, .ret NotInBreach none (some .bucketParse))
      else if valid then
        let body := (slice contents (offset + HeaderSize) (offset + HeaderSize + bodyLength) : Tr Bytes) >>=
          (enc.decryptBodyT E secret ·)
        match body.out with
        | .panic p => (header.ops ++ body.ops, .panic p)
        | .err e => (header.ops ++ body.ops, .ret NotInBreach none (some e))
        | .ok metadata => (header.ops ++ body.ops, .ret (MetadataType.toBreachStatus flag) (some metadata) none)
      else
        let rest := finalizeLoopT E enc secret contents (offset + HeaderSize + bodyLength)
        (header.ops ++ rest.1, rest.2)
termination_by contents.length - offset
decreasing_by
  simp only [HeaderSize, CtxtKeyCheckSize] at *
  omega

/-- client.go:109-154 -/
def ClientRequestContext.finalizeT (E : Ext) (ctx : ClientRequestContext) (response : ServerResponse) : List Op × Out :=
  if UInt16.ofNat response.version.toNat ≠ ctx.client.version then
    ([], .ret NotInBreach none (some .wrongVersionReply))
  else
    match ctx.client.suite.clientFinalize ctx.input ctx.blind response.evaluatedElement OprfInfo with
    | .panic p => ([.unblind], .panic p)
    | .err e => ([.unblind], .ret NotInBreach none (some e))
    | .ok secret =>
      let r := finalizeLoopT E ctx.client.bucketEncryptor secret response.bucketContents 0
      (.unblind :: r.1, r.2)

/-- server.go:138-141 -/
def Server.deriveBucketEntryKeyT (E : Ext) (s : Server) (username password : Bytes) : Tr Bytes := do
  let ser ← serializeUsernamePassword username password
  let input ← s.slowHasher.hashT E ser
  (⟨[.fullEvaluate input.length], s.suite.fullEvaluate s.privateKey input OprfInfo⟩ : Tr Bytes)

/-- server.go:144-146 -/
def Server.bucketIDT (E : Ext) (s : Server) (username : Bytes) : Tr UInt32 := do
  let h ← s.bucketHasher.hashT E username
  bucketHashToID h s.bucketIDBitSize

/-- server.go:152-162 -/
def Server.encryptBucketEntryT (E : Ext) (s : Server) (username password : Bytes) (metadataFlag : MetadataType)
    (metadata : Bytes) : Tr Bytes :=
  if !MetadataType.valid metadataFlag then ⟨[], .err (.invalidFlag (runeString metadataFlag))⟩
  else do
    let key ← s.deriveBucketEntryKeyT E username password
    s.bucketEncryptor.encryptT E key metadataFlag metadata

/-- server.go:222-250 -/
def Server.handleRequestT (s : Server) (request : ClientRequest) (kv : Getter) : Tr ServerResponse :=
  if UInt16.ofNat request.version.toNat ≠ s.version then ⟨[], .err .versionMismatch⟩
  else do
    let evaluated ← (⟨[.evaluate], s.suite.evaluate s.privateKey request.blindElement OprfInfo⟩ : Tr Bytes)
    match hexDecode request.bucketID with
    | none => (Res.err .bucketIDHex : Res ServerResponse)
    | some _ =>
      let bucketContents ← (⟨[.get request.bucketID], kv request.bucketID⟩ : Tr Bytes)
      pure { version := request.version, evaluatedElement := evaluated, bucketContents }

/-- cmd/server/server.go:64-73 -/
def insertVariantsT (E : Ext) (s : Server) (username metadata : Bytes) (bucketIDHex : GoString) :
    (variants : List Bytes) → KV → List Op × KV × Res Unit
  | [], kv => ([], kv, .ok ())
  | variant :: rest, kv =>
    let entry := s.encryptBucketEntryT E username variant MetadataSimilarPassword metadata
    match entry.out with
    | .ok newEntry =>
      let r := insertVariantsT E s username metadata bucketIDHex rest (kv.append bucketIDHex newEntry)
      (entry.ops ++ .append bucketIDHex newEntry.length :: r.1, r.2)
    | .err e => (entry.ops, kv, .err e)
    | .panic p => (entry.ops, kv, .panic p)

/-- cmd/server/server.go:75-86 -/
def insertUsernameT (E : Ext) (s : Server) (username metadata : Bytes) (bucketIDHex : GoString)
    (includeUsernameVariant : Bool) (kv : KV) : List Op × KV × Res Unit :=
  if includeUsernameVariant then
    let entry := s.encryptBucketEntryT E username [] MetadataBreachedUsername metadata
    match entry.out with
    | .ok newEntry => (entry.ops ++ [.append bucketIDHex newEntry.length], kv.append bucketIDHex newEntry, .ok ())
    | .err e => (entry.ops, kv, .err e)
    | .panic p => (entry.ops, kv, .panic p)
  else ([], kv, .ok ())

/-- cmd/server/server.go:51-87 -/
def insertT (E : Ext) (s : Server) (username password metadata : Bytes) (numVariants : Int) (includeUsernameVariant : Bool)
    (kv : KV) : List Op × KV × Res Unit :=
  let id := s.bucketIDT E username
  match id.out with
  | .err e => (id.ops, kv, .err e)
  | .panic p => (id.ops, kv, .panic p)
  | .ok n =>
    let bucketIDHex := BucketIDToHex n
    let entry := s.encryptBucketEntryT E username password MetadataBreachedPassword metadata
    match entry.out with
    | .err e => (id.ops ++ entry.ops, kv, .err e)
    | .panic p => (id.ops ++ entry.ops, kv, .panic p)
    | .ok newEntry =>
      let kv := kv.append bucketIDHex newEntry
      let ops := id.ops ++ (entry.ops ++ [.append bucketIDHex newEntry.length])
      match Mutator.mutate Mutator.dasRules password numVariants with
      | .err e => (ops, kv, .err e)
      | .panic p => (ops, kv, .panic p)
      | .ok passwordVariants =>
        let variants := insertVariantsT E s username metadata bucketIDHex passwordVariants kv
        match variants.2 with
        | (kv, .err e) => (ops ++ variants.1, kv, .err e)
        | (kv, .panic p) => (ops ++ variants.1, kv, .panic p)
        | (kv, .ok ()) =>
          let r := insertUsernameT E s username metadata bucketIDHex includeUsernameVariant kv
          (ops ++ variants.1 ++ r.1, r.2)

/-- cmd/server/server.go:105-137 -/
def handleEvaluateT (s : Server) (kv : KV) (stale : Nat → Nat → UInt8) (body : Option Bytes) : Tr Writer :=
  match body with
  | none => ⟨[], .ok (Writer.new.error (statusText 400) 400)⟩
  | some body =>
    let request := ClientRequest.unmarshalJSON stale body ClientRequest.zero
    let w := if request.2 then Writer.new.error (statusText 400) 400 else Writer.new
    let response := s.handleRequestT request.1 kv.get
    match response.out with
    | .panic p => ⟨response.ops, .panic p⟩
    | .err _ => ⟨response.ops, .ok (w.error (statusText 500) 500)⟩
    | .ok migpResponse =>
      let w := w.setContentType (ascii "application/octet-stream")
      match migpResponse.marshalBinary with
      | .panic p => ⟨response.ops, .panic p⟩
      | .err _ => ⟨response.ops, .ok ((w.error (statusText 500) 500).write [])⟩
      | .ok respBody => ⟨response.ops, .ok (w.write respBody)⟩

/-- client.go:157-200 -/
def QueryT (E : Ext) (cfg : Config) (post : Bytes → Transport) (username password : Bytes) (rand : (S : Suite) → ZMod S.q) :
    List Op × Out :=
  match NewClient E cfg with
  | .panic p => ([], .panic p)
  | .err e => ([], .ret 0 none (some e))
  | .ok client =>
    let request := client.requestT E username password (rand client.suite)
    match request.out with
    | .panic p => (request.ops, .panic p)
    | .err e => (request.ops, .ret 0 none (some e))
    | .ok (migpRequest, context) =>
      match post migpRequest.marshalJSON with
      | .failed => (request.ops, .ret 0 none (some .transport))
      | .reply status body =>
        if status ≠ 200 then (request.ops, .ret 0 none (some (.httpStatus status)))
        else
          match body with
          | none => (request.ops, .ret 0 none (some .transport))
          | some body =>
            match ServerResponse.unmarshalBinary body with
            | .panic p => (request.ops, .panic p)
            | .err e => (request.ops, .ret 0 none (some e))
            | .ok responsePayload =>
              let r := context.finalizeT E responsePayload
              (request.ops ++ r.1, r.2)

/-- cmd/server/main.go:77-93 -/
def loadLinesT (E : Ext) (s : Server) (metadata : Bytes) (numVariants : Int) (includeUsernameVariant : Bool) :
    (lines : List Bytes) → (kv : KV) → (successCount failureCount : Nat) → List Op × Load
  | [], kv, successCount, failureCount => ([], .done kv successCount failureCount)
  | line :: lines, kv, successCount, failureCount =>
    match splitN2 line 58 with
    | [username, password] =>
      let i := insertT E s username password metadata numVariants includeUsernameVariant kv
      match i.2 with
      | (_, .panic p) => (i.1, .crashed p)
      | (kv, .err _) =>
        let r := loadLinesT E s metadata numVariants includeUsernameVariant lines kv successCount (failureCount + 1)
        (i.1 ++ r.1, r.2)
      | (kv, .ok ()) =>
        let r := loadLinesT E s metadata numVariants includeUsernameVariant lines kv (successCount + 1) failureCount
        (i.1 ++ r.1, r.2)
    | _ => loadLinesT E s metadata numVariants includeUsernameVariant lines kv successCount (failureCount + 1)

end Migp
