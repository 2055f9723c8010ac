import Verif.Model.KV
import Verif.Model.Mutator
/-!
# `cmd/server/server.go`: construction and `insert`
-/
namespace Migp

/-- cmd/server/server.go:36-39 -/
structure CmdServer where
  migpServer : Server
  kv : KV

/-- cmd/server/server.go:18-33 -/
def newCmdServer (E : Ext) (cfg : ServerConfig) : Res CmdServer := do
  let migpServer ← NewServer E cfg
  .ok { migpServer, kv := newKVStore }

/-- cmd/server/server.go:64-73: the loop over the variants. Returns the store reached and how the
loop ended (entries appended before an error or panic stay in the store). -/
def insertVariants (E : Ext) (s : Server) (username metadata : Bytes) (bucketIDHex : GoString) :
    (variants : List Bytes) → KV → KV × Res Unit
  | [], kv => (kv, .ok ())
  | variant :: rest, kv =>
    match s.encryptBucketEntry E username variant MetadataSimilarPassword metadata with
    | .ok newEntry => insertVariants E s username metadata bucketIDHex rest (kv.append bucketIDHex newEntry)
    | .err e => (kv, .err e)
    | .panic p => (kv, .panic p)

/-- cmd/server/server.go:75-86: the optional username entry (password nil). -/
def insertUsername (E : Ext) (s : Server) (username metadata : Bytes) (bucketIDHex : GoString)
    (includeUsernameVariant : Bool) (kv : KV) : KV × Res Unit :=
  if includeUsernameVariant then
    match s.encryptBucketEntry E username [] MetadataBreachedUsername metadata with
    | .ok newEntry => (kv.append bucketIDHex newEntry, .ok ())
    | .err e => (kv, .err e)
    | .panic p => (kv, .panic p)
  else (kv, .ok ())

/-- cmd/server/server.go:51-87. `kv.Append` never fails. The mutator is freshly built with the
shipped rules (rdasmutator.go:43-50). Returns the new store and the result. -/
def insert (E : Ext) (s : Server) (username password metadata : Bytes) (numVariants : Int)
    (includeUsernameVariant : Bool) (kv : KV) : KV × Res Unit :=
  match s.bucketID E username with
  | .err e => (kv, .err e)
  | .panic p => (kv, .panic p)
  | .ok id =>
    let bucketIDHex := BucketIDToHex id
    match s.encryptBucketEntry E username password MetadataBreachedPassword metadata with
    | .err e => (kv, .err e)
    | .panic p => (kv, .panic p)
    | .ok newEntry =>
      let kv := kv.append bucketIDHex newEntry
      match Mutator.mutate Mutator.dasRules password numVariants with
      | .err e => (kv, .err e)
      | .panic p => (kv, .panic p)
      | .ok passwordVariants =>
        match insertVariants E s username metadata bucketIDHex passwordVariants kv with
        | (kv, .err e) => (kv, .err e)
        | (kv, .panic p) => (kv, .panic p)
        | (kv, .ok ()) => insertUsername E s username metadata bucketIDHex includeUsernameVariant kv

end Migp
