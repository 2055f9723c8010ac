import Verif.Model.Cost
import Verif.Spec.Database
/-!
# What the operations should be
-/
namespace Migp.Spec

/-- The OPRF input: hashed slowly or not at all. It has 32 bytes or those of the credential with its two length fields. -/
def inputLength (slowID : UInt16) (u p : Bytes) : Nat := if slowID = 0 then 4 + u.length + p.length else 32

/-- One slow hash of the credential, if any. -/
def slowOps (slowID : UInt16) (u p : Bytes) : List Op :=
  if slowID = 0 then [] else [.scrypt (4 + u.length + p.length)]

/-- Making a request: a slow hash, a blinding and a hash of the username. -/
def requestOps (slowID : UInt16) (u p : Bytes) : List Op :=
  slowOps slowID u p ++ [.blind (inputLength slowID u p), .bucketHash u.length]

/-- Storing one credential in the bucket `id`: a slow hash, one OPRF evaluation, two pads and one append. -/
def storeOps (slowID : UInt16) (id : GoString) (x : Stored) : List Op :=
  slowOps slowID x.username x.password ++
    [.fullEvaluate (inputLength slowID x.username x.password), .pad 21, .pad x.metadata.length,
      .append id (25 + x.metadata.length)]

/-- Is it an OPRF evaluation on behalf of an insert? -/
def isFullEvaluate : Op → Bool
  | .fullEvaluate _ => true
  | _ => false

/-- Is it an append to the store? -/
def isAppend : Op → Bool
  | .append _ _ => true
  | _ => false

end Migp.Spec
