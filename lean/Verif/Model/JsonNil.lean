import Verif.Model.Json
/-!
# Nil slices in the JSON of requests and responses

`Verif.Model.Json` has no nil slices. A request or response that is built by hand, and the response of a server whose store
returns nil for a bucket that was never written (as that of `cmd/server` does, cmd/server/kv.go:41-46), can have them. Here a `[]byte` is
`none` for nil.
-/
namespace Migp
open Json

/-- `encoding/json`'s encoding of a `[]byte`. -/
def encSlice : Option Bytes → Bytes
  | none => ascii "null"
  | some b => encBytes b

/-- What can be seen of a slice but whether it is nil. -/
def sliceBytes (b : Option Bytes) : Bytes := b.getD []

/-- client.go:30-34: `json.Marshal` of a `ClientRequest` with such a slice. -/
def ClientRequest.marshalSlices (version : UInt32) (bucketID : GoString) (blindElement : Option Bytes) : Bytes :=
  encObject [(ascii "version", natDec version.toNat), (ascii "bucketID", quote bucketID), (ascii "blindElement", encSlice blindElement)]

/-- server.go:165-169: `json.Marshal` of a `ServerResponse` with such slices. -/
def ServerResponse.marshalSlices (version : UInt32) (evaluatedElement bucketContents : Option Bytes) : Bytes :=
  encObject [(ascii "version", natDec version.toNat), (ascii "evaluatedElement", encSlice evaluatedElement),
    (ascii "bucketContents", encSlice bucketContents)]

end Migp
