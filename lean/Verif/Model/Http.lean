import Verif.Model.CmdServer
import Verif.Model.Json
import Verif.Go.Http
/-!
# HTTP: the handlers of `cmd/server/server.go` and `Query` of `pkg/migp/client.go`
-/
namespace Migp
open Http

/-- cmd/server/server.go:90-92 -/
def handleIndex : Writer := Writer.new.write (ascii "Welcome to the MIGP demo server\n")

/-- cmd/server/server.go:95-102. `Encoder.Encode` writes the JSON and a newline; it does not fail. -/
def handleConfig (s : Server) : Writer :=
  Writer.new.write (s.config.toConfig.marshalJSON ++ [10])

/-- cmd/server/server.go:105-137. `body` is what `ioutil.ReadAll` returned (`none` is an error); `stale` is what
spare capacity of slices holds during decoding. Note that the handler goes on after a decoding error
(lines 114-117). -/
def handleEvaluate (s : Server) (kv : KV) (stale : Nat → Nat → UInt8) (body : Option Bytes) : Res Writer :=
  match body with
  | none => .ok (Writer.new.error (statusText 400) 400)
  | some body =>
    let request := ClientRequest.unmarshalJSON stale body ClientRequest.zero
    let w := if request.2 then Writer.new.error (statusText 400) 400 else Writer.new
    match s.handleRequest request.1 kv.get with
    | .panic p => .panic p
    | .err _ => .ok (w.error (statusText 500) 500)
    | .ok migpResponse =>
      let w := w.setContentType (ascii "application/octet-stream")
      match migpResponse.marshalBinary with
      | .panic p => .panic p
      | .err _ => .ok ((w.error (statusText 500) 500).write [])
      | .ok respBody => .ok (w.write respBody)

/-- The three handlers. -/
inductive Route where
  | index | config | evaluate
  /-- a redirect to the cleaned path -/
  | redirect (target : GoString)
deriving DecidableEq

/-- cmd/server/server.go:42-48 -/
def route (path : GoString) : Route :=
  match muxHandler [ascii "/", ascii "/evaluate", ascii "/config"] path with
  | .inr target => .redirect target
  | .inl pattern =>
    if pattern = ascii "/evaluate" then .evaluate
    else if pattern = ascii "/config" then .config
    else .index

/-- The reply to a request for a path (`none` for redirects, which are not modelled further). The method is not
looked at by any handler. -/
def serve (s : Server) (kv : KV) (stale : Nat → Nat → UInt8) (path : GoString) (body : Option Bytes) :
    Option (Res Writer) :=
  match route path with
  | .index => some (.ok handleIndex)
  | .config => some (.ok (handleConfig s))
  | .evaluate => some (handleEvaluate s kv stale body)
  | .redirect _ => none

/-- What a client's HTTP library reports for a POST: it could not be done (bad URL, connection
failed), or a reply whose body could be read (`some`) or not. -/
inductive Transport where
  | failed
  | reply (status : Nat) (body : Option Bytes)

/-- client.go:157-200. `rand` is the source of blinds, `post` the network. -/
def Query (E : Ext) (cfg : Config) (post : Bytes → Transport) (username password : Bytes)
    (rand : (S : Suite) → ZMod S.q) : Out :=
  match NewClient E cfg with
  | .panic p => .panic p
  | .err e => .ret 0 none (some e)
  | .ok client =>
    match client.request E username password (rand client.suite) with
    | .panic p => .panic p
    | .err e => .ret 0 none (some e)
    | .ok (migpRequest, context) =>
      match post migpRequest.marshalJSON with
      | .failed => .ret 0 none (some .transport)
      | .reply status body =>
        if status ≠ 200 then .ret 0 none (some (.httpStatus status))
        else
          match body with
          | none => .ret 0 none (some .transport)
          | some body =>
            match ServerResponse.unmarshalBinary body with
            | .panic p => .panic p
            | .err e => .ret 0 none (some e)
            | .ok responsePayload => context.finalize E responsePayload

/-- A network that delivers the body unchanged to a path of the server and brings back what the handler
wrote; a panicking handler closes the connection, and a redirect is not followed. -/
def deliver (s : Server) (kv : KV) (stale : Nat → Nat → UInt8) (path : GoString) (body : Bytes) :
    Transport :=
  match serve s kv stale path (some body) with
  | some (.ok w) => .reply w.reply.status (some w.reply.body)
  | some _ => .failed
  | none => .failed

end Migp
