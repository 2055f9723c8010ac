import Verif.Model.Exchange
import Verif.Model.KVRun
/-!
# The calls to the store that `insert` makes

`insert` never reads the store, so its calls are a list that depends on its arguments only. (That running
this list has the effect of `insert` is `insertCalls_run` in `Verif.Props.ConcInsert`.)
-/
namespace Migp
open Spec (KVOp)

/-- cmd/server/server.go:64-73: one `Append` per variant, until the first one that fails; second component:
whether the loop completed. -/
def variantCalls (E : Ext) (s : Server) (username metadata : Bytes) (bucketIDHex : GoString) :
    (variants : List Bytes) → List KVOp × Bool
  | [] => ([], true)
  | variant :: rest =>
    match s.encryptBucketEntry E username variant MetadataSimilarPassword metadata with
    | .ok newEntry =>
      (.append bucketIDHex newEntry :: (variantCalls E s username metadata bucketIDHex rest).1,
        (variantCalls E s username metadata bucketIDHex rest).2)
    | _ => ([], false)

/-- cmd/server/server.go:75-86 -/
def usernameCalls (E : Ext) (s : Server) (username metadata : Bytes) (bucketIDHex : GoString)
    (includeUsernameVariant : Bool) : List KVOp :=
  if includeUsernameVariant then
    match s.encryptBucketEntry E username [] MetadataBreachedUsername metadata with
    | .ok newEntry => [.append bucketIDHex newEntry]
    | _ => []
  else []

/-- cmd/server/server.go:51-87 -/
def insertCalls (E : Ext) (s : Server) (r : Spec.Record) : List KVOp :=
  match s.bucketID E r.username with
  | .ok id =>
    match s.encryptBucketEntry E r.username r.password MetadataBreachedPassword r.metadata with
    | .ok newEntry =>
      .append (BucketIDToHex id) newEntry ::
        match Mutator.mutate Mutator.dasRules r.password r.numVariants with
        | .ok passwordVariants =>
          (variantCalls E s r.username r.metadata (BucketIDToHex id) passwordVariants).1 ++
            if (variantCalls E s r.username r.metadata (BucketIDToHex id) passwordVariants).2 then
              usernameCalls E s r.username r.metadata (BucketIDToHex id) r.withUsername
            else []
        | _ => []
    | _ => []
  | _ => []

/-- What a goroutine of the server does with the store: it inserts records (cmd/server/main.go:87) or
answers requests (`HandleRequest` makes one `Get`, pkg/migp/server.go:240). -/
inductive Job where
  | insert (r : Spec.Record)
  | request (bucketIDHex : GoString)

/-- The calls of a job. -/
def Job.calls (E : Ext) (s : Server) : Job → List KVOp
  | .insert r => insertCalls E s r
  | .request b => [.get b]

end Migp
