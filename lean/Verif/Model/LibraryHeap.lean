import Verif.Go.Heap
import Verif.Model.Server
/-!
# `pkg/migp` with slices that share memory

Package variables (`OprfInfo`, `DerivePadHeaderSalt`, `DerivePadBodySalt`) are only ever read, so they are
left as values. Functions of other packages read their arguments and return newly allocated memory, but for
`(*hkdf).Read` and `(*bytes.Buffer).Read`, which write to their argument, and `bytes.Buffer`'s
`Bytes`, which returns a slice of the buffer.
-/
namespace Migp
open HM

/-- common.go:156-166 -/
def serializeUsernamePasswordH (username password : Slice) : HM Slice :=
  if username.len > 65536 ∨ password.len > 65536 then HM.panic .lengthOverflow
  else do
    let buf ← make (4 + username.len + password.len)
    putUint16 buf (UInt16.ofNat username.len)
    let d ← resliceFrom buf 2
    copySlice d username
    let d ← resliceFrom buf (2 + username.len)
    putUint16 d (UInt16.ofNat password.len)
    let d ← resliceFrom buf (4 + username.len)
    copySlice d password
    pure buf

/-- hasher.go:42-54. `Sum256` returns an array, of which line 53 makes a slice. -/
def BucketHasher.hashH (E : Ext) : BucketHasher → Slice → HM Slice
  | .sha256 salt, buf =>
    if salt.length > 65536 ∨ buf.len > 65536 then HM.panic .hasherInput
    else do
      let acc ← make (2 + salt.length + 2 + buf.len)
      putUint16 acc (UInt16.ofNat salt.length)
      let d ← resliceFrom acc 2
      copyBytes d salt
      let d ← resliceFrom acc (2 + salt.length)
      putUint16 d (UInt16.ofNat buf.len)
      let d ← resliceFrom acc (2 + salt.length + 2)
      copySlice d buf
      let b ← load acc
      new (E.sha256 b)

/-- slowhasher.go:62-71, 87-89: the null hasher returns its argument. -/
def SlowHasher.hashH (E : Ext) : SlowHasher → Slice → HM Slice
  | .null, buf => pure buf
  | .scrypt salt N r p L, buf => do
    let b ← load buf
    match scryptKey E b salt N r p L with
    | .ok t => new t
    | .err _ => HM.panic .scryptParams
    | .panic x => HM.panic x

/-- common.go:170-177: reads the hash only. -/
def bucketHashToIDH (bucketHash : Slice) (bitSize : Int) : HM UInt32 := do
  let b ← load bucketHash
  lift (bucketHashToID b bitSize)

/-- encryptor.go:121-123: the loop, from index `i` with `n` iterations left. -/
def xorLoopH (b1 b2 b3 : Slice) : (i n : Nat) → HM Unit
  | _, 0 => pure ()
  | i, n + 1 => do
    let x ← getIdx b1 i
    let y ← getIdx b2 i
    setIdx b3 i (x ^^^ y)
    xorLoopH b1 b2 b3 (i + 1) n

/-- encryptor.go:116-125 -/
def xorBytesH (b1 b2 : Slice) : HM Slice :=
  if b1.len ≠ b2.len then HM.panic .xorMismatch
  else do
    let b3 ← make b1.len
    xorLoopH b1 b2 b3 0 b1.len
    pure b3

/-- `r.Read(pad)` on the reader `hkdf.New` has made of `secret` and `salt`. -/
def hkdfReadH (sha : Bytes → Bytes) (secret salt : Bytes) (pad : Slice) : HM Nat :=
  match hkdfNewRead sha secret salt pad.len with
  | .ok (n, content) => do
    copyBytes pad content
    pure n
  | .err e => HM.err e
  | .panic p => HM.panic p

/-- encryptor.go:129-140 -/
def derivePadH (E : Ext) (secret : Slice) (salt : Bytes) (length : Nat) : HM Slice := do
  let b ← load secret
  let pad ← make length
  let n ← hkdfReadH E.sha256 b salt pad
  if n ≠ length then HM.err .hkdfShort
  else pure pad

/-- encryptor.go:50-74 -/
def BucketEncryptor.encryptH (E : Ext) : BucketEncryptor → (secret : Slice) → (flag : MetadataType) →
    (body : Slice) → HM Slice
  | .hkdfSHA256, secret, flag, body => do
    let headerPad ← derivePadH E secret DerivePadHeaderSalt (CtxtKeyCheckSize + 1)
    let header ← make (CtxtKeyCheckSize + 1)
    setIdx header CtxtKeyCheckSize flag
    let encryptedHeader ← xorBytesH header headerPad
    let bodyPad ← derivePadH E secret DerivePadBodySalt body.len
    let encryptedBody ← xorBytesH body bodyPad
    let ciphertext ← make (encryptedHeader.len + 4 + encryptedBody.len)
    copySlice ciphertext encryptedHeader
    let d ← resliceFrom ciphertext encryptedHeader.len
    putUint32 d (UInt32.ofNat encryptedBody.len)
    let d ← resliceFrom ciphertext (encryptedHeader.len + 4)
    copySlice d encryptedBody
    pure ciphertext

/-- encryptor.go:78-97 -/
def BucketEncryptor.decryptHeaderH (E : Ext) : BucketEncryptor → (secret : Slice) →
    (ciphertext : Slice) → HM (Bool × MetadataType × Nat)
  | .hkdfSHA256, secret, ciphertext =>
    if ciphertext.len < HeaderSize then HM.err .headerTooShort
    else do
      let headerPad ← derivePadH E secret DerivePadHeaderSalt (CtxtKeyCheckSize + 1)
      let padKey ← reslice headerPad 0 CtxtKeyCheckSize
      let ctKey ← reslice ciphertext 0 CtxtKeyCheckSize
      let padKey ← load padKey
      let ctKey ← load ctKey
      let keyCheck := decide (padKey = ctKey)
      let padFlag ← getIdx headerPad CtxtKeyCheckSize
      let ctFlag ← getIdx ciphertext CtxtKeyCheckSize
      let flag := padFlag ^^^ ctFlag
      let lenBytes ← reslice ciphertext (CtxtKeyCheckSize + 1) (CtxtKeyCheckSize + 5)
      let lenBytes ← load lenBytes
      let bodyLength ← lift (beUint32 lenBytes)
      pure (keyCheck, flag, bodyLength.toNat)

/-- encryptor.go:102-112 -/
def BucketEncryptor.decryptBodyH (E : Ext) : BucketEncryptor → (secret : Slice) →
    (ciphertext : Slice) → HM Slice
  | .hkdfSHA256, secret, ciphertext => do
    let bodyPad ← derivePadH E secret DerivePadBodySalt ciphertext.len
    xorBytesH ciphertext bodyPad

/-- client.go:30-34 -/
structure ClientRequestH where
  version : UInt32
  bucketID : GoString
  blindElement : Slice

/-- client.go:39-42. The `oprf.ClientRequest` keeps the slice it was given. -/
structure ClientRequestContextH where
  client : Client
  input : Slice
  blind : ZMod client.suite.q

/-- server.go:165-169 -/
structure ServerResponseH where
  version : UInt32
  evaluatedElement : Slice
  bucketContents : Slice

/-- client.go:75-77 -/
def Client.bucketIDH (E : Ext) (c : Client) (username : Slice) : HM UInt32 := do
  let h ← c.bucketHasher.hashH E username
  bucketHashToIDH h c.bucketIDBitSize

/-- client.go:81-104 -/
def Client.requestH (E : Ext) (c : Client) (username password : Slice) (blind : ZMod c.suite.q) :
    HM (ClientRequestH × ClientRequestContextH) := do
  let ser ← serializeUsernamePasswordH username password
  let input ← c.slowHasher.hashH E ser
  let b ← load input
  let blinded ← new (c.suite.blind b blind)
  let id ← c.bucketIDH E username
  pure ({ version := UInt32.ofNat c.version.toNat, bucketID := BucketIDToHex id, blindElement := blinded },
    { client := c, input, blind })

/-- The three values `Finalize` returns. -/
structure FinalizeH where
  status : BreachStatus
  metadata : Option Slice
  error : Option Err

/-- client.go:125-153 -/
def finalizeLoopH (E : Ext) (enc : BucketEncryptor) (secret contents : Slice) (offset : Nat) :
    HM FinalizeH :=
  if _h : offset + HeaderSize > contents.len then pure ⟨NotInBreach, none, none⟩
  else do
    match ← attempt ((resliceFrom contents offset) >>= (enc.decryptHeaderH E secret ·)) with
    | .error e => pure ⟨NotInBreach, none, some e⟩
    | .ok (valid, flag, bodyLength) =>
      if offset + HeaderSize + bodyLength > contents.len then
        pure ⟨NotInBreach, none, some .bucketParse⟩
      else if valid then
        match ← attempt ((reslice contents (offset + HeaderSize) (offset + HeaderSize + bodyLength)) >>=
            (enc.decryptBodyH E secret ·)) with
        | .error e => pure ⟨NotInBreach, none, some e⟩
        | .ok metadata => pure ⟨MetadataType.toBreachStatus flag, some metadata, none⟩
      else
        finalizeLoopH E enc secret contents (offset + HeaderSize + bodyLength)
termination_by contents.len - offset
decreasing_by
  simp only [HeaderSize, CtxtKeyCheckSize] at *
  omega

/-- client.go:109-154 -/
def ClientRequestContextH.finalizeH (E : Ext) (ctx : ClientRequestContextH) (response : ServerResponseH) :
    HM FinalizeH :=
  if UInt16.ofNat response.version.toNat ≠ ctx.client.version then
    pure ⟨NotInBreach, none, some .wrongVersionReply⟩
  else do
    let input ← load ctx.input
    let element ← load response.evaluatedElement
    match ctx.client.suite.clientFinalize input ctx.blind element OprfInfo with
    | .panic p => HM.panic p
    | .err e => pure ⟨NotInBreach, none, some e⟩
    | .ok secret =>
      let secret ← new secret
      finalizeLoopH E ctx.client.bucketEncryptor secret response.bucketContents 0

/-- server.go:138-141 -/
def Server.deriveBucketEntryKeyH (E : Ext) (s : Server) (username password : Slice) : HM Slice := do
  let ser ← serializeUsernamePasswordH username password
  let input ← s.slowHasher.hashH E ser
  let b ← load input
  let key ← lift (s.suite.fullEvaluate s.privateKey b OprfInfo)
  new key

/-- server.go:144-146 -/
def Server.bucketIDH (E : Ext) (s : Server) (username : Slice) : HM UInt32 := do
  let h ← s.bucketHasher.hashH E username
  bucketHashToIDH h s.bucketIDBitSize

/-- server.go:152-162 -/
def Server.encryptBucketEntryH (E : Ext) (s : Server) (username password : Slice)
    (metadataFlag : MetadataType) (metadata : Slice) : HM Slice :=
  if !MetadataType.valid metadataFlag then HM.err (.invalidFlag (runeString metadataFlag))
  else do
    let key ← s.deriveBucketEntryKeyH E username password
    s.bucketEncryptor.encryptH E key metadataFlag metadata

/-- server.go:222-250, with a store that hands out slices. -/
def Server.handleRequestH (s : Server) (request : ClientRequestH) (kv : GoString → HM Slice) :
    HM ServerResponseH :=
  if UInt16.ofNat request.version.toNat ≠ s.version then HM.err .versionMismatch
  else do
    let element ← load request.blindElement
    let evaluated ← lift (s.suite.evaluate s.privateKey element OprfInfo)
    let evaluated ← new evaluated
    match hexDecode request.bucketID with
    | none => HM.err .bucketIDHex
    | some _ =>
      let bucketContents ← kv request.bucketID
      pure { version := request.version, evaluatedElement := evaluated, bucketContents }

/-- server.go:173-185: the `bytes.Buffer` allocates its memory. -/
def ServerResponseH.marshalBinaryH (r : ServerResponseH) : HM Slice := do
  let element ← load r.evaluatedElement
  let contents ← load r.bucketContents
  new (be32 r.version ++ element ++ contents)

/-- server.go:189-206: the receiver afterwards and the error. `bytes.NewBuffer(data)` takes over
`data`: reading moves an offset, and `Bytes` is the unread part of `data` itself. -/
def ServerResponseH.unmarshalBinaryH (r : ServerResponseH) (data : Slice) :
    HM (ServerResponseH × Option Err) := do
  let head ← load { data with len := min 4 data.len }
  match readUint32 head with
  | .err e => pure (r, some e)
  | .panic p => HM.panic p
  | .ok (version, _) =>
    let r := { r with version }
    let element ← make defaultElementLength
    let r := { r with evaluatedElement := element }
    let unread ← load ⟨data.arr, data.off + 4, min element.len (data.len - 4), data.cap - 4⟩
    match bufferRead unread element.len with
    | .err e => pure (r, some e)
    | .panic p => HM.panic p
    | .ok (n, content, _) => do
      copyBytes element content
      if n ≠ element.len then pure (r, some .elementTooShort)
      else pure ({ r with bucketContents :=
              ⟨data.arr, data.off + 4 + n, data.len - 4 - n, data.cap - 4 - n⟩ }, none)

end Migp
