import Verif.Model.Exchange
import Verif.Spec.Hkdf
/-!
# Stores filled under several keys

A store outlives a server: it may be filled by servers with other private keys, slow hashes, suites and versions than the one
that answers from it.
-/
namespace Migp.Spec

/-- Servers that make the same entries of the same credentials: of one slow hash, suite and private key. -/
def Alike (a b : ServerConfig) : Prop :=
  a.slowHasherID = b.slowHasherID ∧ a.oprfSuite = b.oprfSuite ∧ a.privateKey = b.privateKey

instance (a b : ServerConfig) : Decidable (Alike a b) := by unfold Alike; infer_instance

/-- The stores that servers of whatever configurations, with one number of bucket bits, can reach together, each step being
taken by any of them, with what they have stored, each credential with the configuration of the server that stored it. -/
inductive SharedHistory (E : Ext) (bits : Int) : KV → List (ServerConfig × Stored) → Prop
  /-- kv.go:17-21 -/
  | start : SharedHistory E bits newKVStore []
  /-- a successful insert, cmd/server/server.go:51-93 -/
  | inserted {kv kv' : KV} {db : List (ServerConfig × Stored)} (cfg : ServerConfig) (s : Server) (r : Record) (vs : List Bytes) :
      SharedHistory E bits kv db → NewServer E cfg = .ok s → cfg.bucketIDBitSize = bits →
      insertRecord E s r kv = (kv', .ok ()) → Mutator.mutate Mutator.dasRules r.password r.numVariants = .ok vs →
      SharedHistory E bits kv' (db ++ (r.stored vs).map fun x => (cfg, x))
  /-- an insert that returned an error -/
  | refused {kv kv' : KV} {db : List (ServerConfig × Stored)} (cfg : ServerConfig) (s : Server) (r : Record) (e : Err) :
      SharedHistory E bits kv db → NewServer E cfg = .ok s → cfg.bucketIDBitSize = bits →
      insertRecord E s r kv = (kv', .err e) → SharedHistory E bits kv' db
  /-- a single entry appended to the bucket of its username -/
  | entry {kv : KV} {db : List (ServerConfig × Stored)} (cfg : ServerConfig) (s : Server) (u p : Bytes) (flag : MetadataType)
      (m c : Bytes) (id : UInt32) :
      SharedHistory E bits kv db → NewServer E cfg = .ok s → cfg.bucketIDBitSize = bits →
      s.encryptBucketEntry E u p flag m = .ok c → s.bucketID E u = .ok id →
      SharedHistory E bits (kv.append (BucketIDToHex id) c) (db ++ [(cfg, ⟨u, p, flag, m⟩)])

/-- What has been stored by servers like that of `cfg`. -/
def ofKey (cfg : ServerConfig) (db : List (ServerConfig × Stored)) : List Stored :=
  (db.filter fun e => decide (Alike e.1 cfg)).map Prod.snd

/-- Two strings of the same 20-byte tag: that of a credential stored by a server that is not like `s`, in the bucket of
`u`, and that of `(u, p)` for `s`. -/
def ForeignCollision (E : Ext) (cfg : ServerConfig) (s : Server) (e : ServerConfig × Stored) (u p : Bytes) : Prop :=
  ¬ Alike e.1 cfg ∧ ∃ s', NewServer E e.1 = .ok s' ∧ s'.bucketID E e.2.username = s.bucketID E u ∧
    ∃ k k', s'.deriveBucketEntryKey E e.2.username e.2.password = .ok k ∧
      s.deriveBucketEntryKey E u p = .ok k' ∧ keyTag E.sha256 k = keyTag E.sha256 k'

end Migp.Spec
