import Verif.Model.Client
/-!
# The loop of `Finalize` with machine integers

client.go:123-153 once more, one iteration at a time and with Go's `int` as a two's-complement
integer of `w` bits (`w = 64`, or 32 on 32-bit platforms). Used for C22 (iteration count) and C23.
`Verif.Props.Finalize` proves that for `w = 64` this is `finalizeLoop`.
-/
namespace Migp

/-- Conversion to / arithmetic in a signed integer type of `w` bits: wraps around. -/
def wrapInt (w : Nat) (x : Int) : Int := Int.bmod x (2 ^ w)

/-- `b[lo:hi]` with signed bounds. -/
def sliceInt (b : Bytes) (lo hi : Int) : Res Bytes :=
  if 0 ≤ lo ∧ lo ≤ hi ∧ hi ≤ b.length then .ok ((b.take hi.toNat).drop lo.toNat) else .panic .bounds

/-- What one iteration does: return from `Finalize`, or go on at a new offset. -/
inductive Step where
  | done (o : Out)
  | next (offset : Int)
deriving DecidableEq, Repr

/-- client.go:125-152, one iteration; encryptor.go:94 `int(binary.BigEndian.Uint32(...))`. -/
def finalizeStep (w : Nat) (E : Ext) (enc : BucketEncryptor) (secret contents : Bytes)
    (offset : Int) : Step :=
  if wrapInt w (offset + HeaderSize) > contents.length then .done (.ret NotInBreach none none)
  else
    match (sliceInt contents offset contents.length) >>= (enc.decryptHeader E secret ·) with
    | .panic p => .done (.panic p)
    | .err e => .done (.ret NotInBreach none (some e))
    | .ok (valid, flag, bodyLength) =>
      let bodyLength := wrapInt w bodyLength
      let offset := wrapInt w (offset + HeaderSize)
      if wrapInt w (offset + bodyLength) > contents.length then
        .done (.ret NotInBreach none (some .bucketParse))
      else if valid then
        match (sliceInt contents offset (wrapInt w (offset + bodyLength))) >>=
            (enc.decryptBody E secret ·) with
        | .panic p => .done (.panic p)
        | .err e => .done (.ret NotInBreach none (some e))
        | .ok metadata => .done (.ret (MetadataType.toBreachStatus flag) (some metadata) none)
      else .next (wrapInt w (offset + bodyLength))

/-- At most `n` iterations from `offset`: the result, or `none` if the loop is still running. -/
def finalizeRun (w : Nat) (E : Ext) (enc : BucketEncryptor) (secret contents : Bytes) :
    (n : Nat) → (offset : Int) → Option Out
  | 0, _ => none
  | n + 1, offset =>
    match finalizeStep w E enc secret contents offset with
    | .done o => some o
    | .next offset' => finalizeRun w E enc secret contents n offset'

/-- client.go:106-154: the whole of `Finalize` with at most `n` iterations of its loop; `none` if the loop is still
running after that. -/
def ClientRequestContext.finalizeRun (w : Nat) (E : Ext) (ctx : ClientRequestContext) (response : ServerResponse)
    (n : Nat) : Option Out :=
  if UInt16.ofNat response.version.toNat ≠ ctx.client.version then
    some (.ret NotInBreach none (some .wrongVersionReply))
  else
    match ctx.client.suite.clientFinalize ctx.input ctx.blind response.evaluatedElement OprfInfo with
    | .panic p => some (.panic p)
    | .err e => some (.ret NotInBreach none (some e))
    | .ok secret => Migp.finalizeRun w E ctx.client.bucketEncryptor secret response.bucketContents n 0

end Migp
