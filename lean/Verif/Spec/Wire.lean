import Verif.Spec.BucketView
import Verif.Spec.Json
import Verif.Model.Http
import Verif.Props.FinalizeApi
/-!
# The protocol on the wire

What the two sides of the protocol have to do, in terms of the bytes that are sent, for somebody who writes another client or
another server.
-/
namespace Migp.Spec

/-- `s` is the number `n` in eight lower-case hexadecimal digits. -/
structure IsBucketID (s : GoString) (n : Nat) : Prop where
  length : s.length = 8
  lower : ∀ c ∈ s, IsLowerHex c
  value : natOfHex s = n

/-- There is a member called `name` (in upper or lower case), and all of them have a value of this kind. -/
def HasMember (name : GoString) (kind : Json.JVal → Prop) (ms : List (GoString × Json.JVal)) : Prop :=
  (∃ m ∈ ms, SameName name m.1) ∧ ∀ m ∈ ms, SameName name m.1 → kind m.2

/-- The members of a request: the version, the bucket, the blinded element. Any order, and any other members. -/
structure IsRequest (ms : List (GoString × Json.JVal)) (version bucket : Nat) (element : Bytes) : Prop where
  version : HasMember (ascii "version") (fun v => IsUint 4294967295 v version) ms
  bucket : HasMember (ascii "bucketID") (fun v => ∃ s, v = .str s ∧ IsBucketID s bucket) ms
  element : HasMember (ascii "blindElement") (fun v => IsBytes v element) ms

/-- What is wrong with a reply of fewer than 37 bytes. -/
def shortReply (n : Nat) : Err :=
  if n = 0 ∨ n = 4 then .eof else if n < 4 then .unexpectedEOF else .elementTooShort

/-- What a client makes of what comes back from the server. It has the OPRF input `input` and the blind `r`, and speaks version
`version`. -/
inductive Understands (S : Suite) (sha : Bytes → Bytes) (version : Nat) (input : Bytes) (r : ZMod S.q) :
    Transport → BreachStatus → Option Bytes → Option Err → Prop
  | noReply : Understands S sha version input r .failed NotInBreach none (some .transport)
  | status {st : Nat} {body : Option Bytes} (h : st ≠ 200) :
      Understands S sha version input r (.reply st body) NotInBreach none (some (.httpStatus st))
  | noBody : Understands S sha version input r (.reply 200 none) NotInBreach none (some .transport)
  | short {body : Bytes} (h : body.length < 37) :
      Understands S sha version input r (.reply 200 (some body)) NotInBreach none (some (shortReply body.length))
  | version {v : Nat} {z contents : Bytes} (hv : v < 2 ^ 32) (hz : z.length = 33) (h : v % 65536 ≠ version) :
      Understands S sha version input r (.reply 200 (some (len32 v ++ z ++ contents))) NotInBreach none (some .wrongVersionReply)
  | element {v : Nat} {z contents : Bytes} (hv : v < 2 ^ 32) (hz : z.length = 33) (h : v % 65536 = version) (hd : S.de z = none) :
      Understands S sha version input r (.reply 200 (some (len32 v ++ z ++ contents))) NotInBreach none (some .oprfElement)
  | answer {v : Nat} {z contents : Bytes} {g : ZMod S.q} {st : BreachStatus} {md : Option Bytes} {err : Option Err}
      (hv : v < 2 ^ 32) (hz : z.length = 33) (h : v % 65536 = version) (hd : S.de z = some g)
      (ha : Answers sha (S.finalizeHash input info (S.ser (r⁻¹ * g))) contents st md err) :
      Understands S sha version input r (.reply 200 (some (len32 v ++ z ++ contents))) st md err

end Migp.Spec
