import Verif.Model.Server
/-!
# `cmd/server/kv.go`, sequential view

The contents of the store as a value. Aliasing of slices is modelled in `Verif.Model.KVHeap` and the
RWMutex in `Verif.Model.KVConc`.
-/
namespace Migp

/-- kv.go:11-14: a Go `map[string][]byte`; a missing key reads as nil, i.e. no bytes. -/
structure KV where
  store : GoString → Bytes

/-- kv.go:17-21 -/
def newKVStore : KV := ⟨fun _ => []⟩

/-- kv.go:24-29 -/
def KV.put (kv : KV) (id : GoString) (value : Bytes) : KV :=
  ⟨fun k => if k = id then value else kv.store k⟩

/-- kv.go:32-37 -/
def KV.append (kv : KV) (id : GoString) (value : Bytes) : KV :=
  ⟨fun k => if k = id then kv.store id ++ value else kv.store k⟩

/-- kv.go:40-44: never an error. -/
def KV.get (kv : KV) (id : GoString) : Res Bytes := .ok (kv.store id)

end Migp
