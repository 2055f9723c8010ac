import Verif.Spec.Bucket
import Verif.Spec.Database
/-!
# What a bucket looks like to somebody without keys
-/
namespace Migp.Spec

/-- What the entries of one credential are masked with: the tag in front, a byte for the flag, a stream for the metadata. -/
structure Pad where
  tag : Bytes
  flag : UInt8
  body : Nat → UInt8

/-- The pads made from a secret with HKDF (at most 8160 bytes of the stream can be used). -/
def hkdfPad (sha : Bytes → Bytes) (secret : Bytes) : Pad :=
  ⟨keyTag sha secret, ((hkdf sha secret (ascii "MIGP derive pad header") [] 21)[20]?).getD 0,
   fun k => (hkdf sha secret (ascii "MIGP derive pad body") [] 8160).getD k 0⟩

/-- The credential of an entry: username and password. -/
def Stored.cred (x : Stored) : Bytes × Bytes := (x.username, x.password)

/-- An entry under a pad: the tag of the pad, the masked flag, the length of the metadata in the clear, the masked metadata. -/
def masked (P : Pad) (x : Stored) : Bytes :=
  P.tag ++ [x.flag ^^^ P.flag] ++ len32 x.metadata.length ++ x.metadata.mapIdx (fun k b => b ^^^ P.body k)

/-- A bucket, given a pad for every credential: its entries one after the other. -/
def maskedBucket (P : Bytes × Bytes → Pad) (xs : List Stored) : Bytes := xs.flatMap (fun x => masked (P x.cred) x)

/-- Two entries `x`, `x'` of one bucket look to each other as `y`, `y'` of another do: they are of the same credential or not; and
if they are, the XOR of their flags and the XOR of their metadata (as far as both go) are the same. -/
structure SameRelation (x x' y y' : Stored) : Prop where
  same : x.cred = x'.cred ↔ y.cred = y'.cred
  flags : x.cred = x'.cred → x.flag ^^^ x'.flag = y.flag ^^^ y'.flag
  metadata : x.cred = x'.cred → ∀ k, k < x.metadata.length → k < x'.metadata.length →
    x.metadata.getD k 0 ^^^ x'.metadata.getD k 0 = y.metadata.getD k 0 ^^^ y'.metadata.getD k 0

/-- Two buckets of the same shape: equally many entries, with metadata of the same lengths, which look to each other in the same
way. -/
structure SameShape (xs ys : List Stored) : Prop where
  entries : xs.length = ys.length
  lengths : xs.map (·.metadata.length) = ys.map (·.metadata.length)
  pairs : ∀ a ∈ xs.zip ys, ∀ b ∈ xs.zip ys, SameRelation a.1 b.1 a.2 b.2

end Migp.Spec
