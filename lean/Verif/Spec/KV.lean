import Verif.Go.Basic
/-!
# Specification of a store of byte strings
-/
namespace Migp.Spec

/-- The operations on the store. -/
inductive KVOp where
  | put (key : GoString) (value : Bytes)
  | append (key : GoString) (value : Bytes)
  | get (key : GoString)
deriving DecidableEq

/-- Everything appended to a key, in order. -/
def appendedTo (key : GoString) : List KVOp → Bytes
  | [] => []
  | .append k v :: ops => if k = key then v ++ appendedTo key ops else appendedTo key ops
  | _ :: ops => appendedTo key ops

/-- No `Put` to the key. -/
def NoPut (key : GoString) (ops : List KVOp) : Prop := ∀ k v, KVOp.put k v ∈ ops → k ≠ key

/-- `Holds ops key b`: after `ops`, started from an empty store, `b` is stored under `key`: the last
value put there, if any, followed by everything appended since. -/
inductive Holds (key : GoString) : List KVOp → Bytes → Prop
  /-- nothing was ever put there -/
  | onlyAppends (ops : List KVOp) : NoPut key ops → Holds key ops (appendedTo key ops)
  /-- `v` was the last value put there -/
  | lastPut (before after : List KVOp) (v : Bytes) : NoPut key after →
      Holds key (before ++ .put key v :: after) (v ++ appendedTo key after)

end Migp.Spec
