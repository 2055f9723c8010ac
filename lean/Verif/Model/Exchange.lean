import Verif.Model.CmdServer
import Verif.Spec.Database
/-!
# The protocol in one process, and histories of the server's store
-/
namespace Migp

/-- One run of the protocol without the wire (client_test.go / server_test.go run it this way):
`Request` (client.go:81), `HandleRequest` on the store (cmd/server/server.go:120), `Finalize`
(client.go:109). Errors of the first two calls are returned with the zero values, as `Query` does. -/
def exchange (E : Ext) (c : Client) (s : Server) (kv : KV) (username password : Bytes)
    (blind : ZMod c.suite.q) : Out :=
  match c.request E username password blind with
  | .panic p => .panic p
  | .err e => .ret NotInBreach none (some e)
  | .ok (req, ctx) =>
    match s.handleRequest req kv.get with
    | .panic p => .panic p
    | .err e => .ret NotInBreach none (some e)
    | .ok resp => ctx.finalize E resp

/-- cmd/server/main.go:87 calls `insert` with the fields of a record. -/
def insertRecord (E : Ext) (s : Server) (r : Spec.Record) (kv : KV) : KV × Res Unit :=
  insert E s r.username r.password r.metadata r.numVariants r.withUsername kv

/-- The stores a running server can reach, with what has been stored in them: starting empty, by
`insert` calls that succeed or return an error, and by library users appending a single entry
(with any valid flag, e.g. a dummy) made by `EncryptBucketEntry` to the username's bucket. -/
inductive History (E : Ext) (s : Server) : KV → List Spec.Stored → Prop
  /-- kv.go:17-21 -/
  | start : History E s newKVStore []
  /-- a successful insert -/
  | inserted {kv kv' : KV} {db : List Spec.Stored} (r : Spec.Record) (vs : List Bytes) :
      History E s kv db → insertRecord E s r kv = (kv', .ok ()) →
      Mutator.mutate Mutator.dasRules r.password r.numVariants = .ok vs →
      History E s kv' (db ++ r.stored vs)
  /-- an insert that returned an error -/
  | refused {kv kv' : KV} {db : List Spec.Stored} (r : Spec.Record) (e : Err) :
      History E s kv db → insertRecord E s r kv = (kv', .err e) → History E s kv' db
  /-- a single entry appended to the bucket of its username -/
  | entry {kv : KV} {db : List Spec.Stored} (u p : Bytes) (flag : MetadataType) (m c : Bytes)
      (id : UInt32) :
      History E s kv db → s.encryptBucketEntry E u p flag m = .ok c → s.bucketID E u = .ok id →
      History E s (kv.append (BucketIDToHex id) c) (db ++ [⟨u, p, flag, m⟩])

end Migp
