import Verif.Model.KV
import Verif.Spec.KV
/-! # Sequences of calls to the store -/
namespace Migp
open Spec (KVOp)

/-- One call: the new store and what the call returns (`Put` and `Append` return a nil error, modelled
as no bytes). -/
def KV.call (kv : KV) : KVOp → KV × Res Bytes
  | .put k v => (kv.put k v, .ok [])
  | .append k v => (kv.append k v, .ok [])
  | .get k => (kv, kv.get k)

/-- A sequence of calls: the final store and the results in order. -/
def KV.run (kv : KV) : List KVOp → KV × List (Res Bytes)
  | [] => (kv, [])
  | op :: ops => (((kv.call op).1.run ops).1, (kv.call op).2 :: ((kv.call op).1.run ops).2)

end Migp
