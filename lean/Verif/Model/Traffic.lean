import Verif.Model.Main
/-!
# What the client program sends

The client as a conversation: each message it sends, and what it does with each outcome. (`clientMain` is the same
program for a network that has been fixed beforehand: `C70_same_program`.)
-/
namespace Migp
open Json Bufio

/-- A message to the server: `GET /config` (cmd/client/main.go:43) or `POST /evaluate` with a body (client.go:170). -/
inductive Sent where
  | config
  | evaluate (body : Bytes)
deriving DecidableEq

/-- A program that talks to a server. -/
inductive Talk (A : Type) where
  | done (a : A)
  | send (m : Sent) (k : Transport → Talk A)

/-- One after the other. -/
def Talk.bind {A B : Type} : Talk A → (A → Talk B) → Talk B
  | .done a, f => f a
  | .send m k, f => .send m (fun t => (k t).bind f)

/-- Let it talk to `net`, which chooses what comes back on the basis of all messages up to now. Gives all the messages
and the result. -/
def Talk.run {A : Type} (net : List Sent → Transport) : Talk A → (before : List Sent) → List Sent × A
  | .done a, before => (before, a)
  | .send m k, before => (k (net (before ++ [m]))).run net (before ++ [m])

/-- client.go:157-200 -/
def queryTalk (E : Ext) (cfg : Config) (username password : Bytes) (rand : (S : Suite) → ZMod S.q) : Talk Out :=
  match NewClient E cfg with
  | .panic p => .done (.panic p)
  | .err e => .done (.ret 0 none (some e))
  | .ok client =>
    match client.request E username password (rand client.suite) with
    | .panic p => .done (.panic p)
    | .err e => .done (.ret 0 none (some e))
    | .ok (migpRequest, context) =>
      .send (.evaluate migpRequest.marshalJSON) fun t =>
        match t with
        | .failed => .done (.ret 0 none (some .transport))
        | .reply status body =>
          if status ≠ 200 then .done (.ret 0 none (some (.httpStatus status)))
          else
            match body with
            | none => .done (.ret 0 none (some .transport))
            | some body =>
              match ServerResponse.unmarshalBinary body with
              | .panic p => .done (.panic p)
              | .err e => .done (.ret 0 none (some e))
              | .ok responsePayload => .done (context.finalize E responsePayload)

/-- cmd/client/main.go:84-116: the loop over the lines. -/
def linesTalk (showPassword : Bool) (query : Nat → Bytes → Bytes → Talk Out) :
    (k : Nat) → (lines : List Bytes) → Talk (Bytes × Exit)
  | _, [] => .done ([], .ok)
  | k, line :: lines =>
    match splitN2 line 58 with
    | [username, password] =>
      (query k username password).bind fun o =>
        match o with
        | .panic p => .done ([], .panic p)
        | .ret _ _ (some _) => .done ([], .failure)
        | .ret status metadata none =>
          let out := clientObject showPassword username password status metadata ++ [10]
          (linesTalk showPassword query (k + 1) lines).bind fun r => .done (out ++ r.1, r.2)
    | _ => linesTalk showPassword query k lines

/-- cmd/client/main.go:34-58: the configuration. -/
def configTalk (config : Option (Option Bytes)) (stale : Nat → Nat → UInt8) : Talk (Option Config) :=
  match config with
  | some none => .done none
  | some (some data) =>
    let r := Config.unmarshalJSON stale data Config.zero
    .done (if r.2 then none else some r.1)
  | none => .send .config fun get =>
    match get with
    | .failed => .done none
    | .reply status body =>
      if status ≠ 200 then .done none
      else
        match body with
        | none => .done none
        | some body =>
          let r := Config.decodeJSON stale body Config.zero
          .done (if r.2 then none else some r.1)

/-- cmd/client/main.go:21-117 -/
def clientTalk (E : Ext) (args : ClientArgs) (rand : Nat → (S : Suite) → ZMod S.q) (stale : Nat → Nat → UInt8)
    (chunk : Nat → Nat) : Talk ClientRun :=
  (configTalk args.config stale).bind fun cfg =>
    match cfg with
    | none => .done ⟨[], false, .failure⟩
    | some cfg =>
      if args.dumpConfig then .done ⟨cfg.marshalJSON, false, .ok⟩
      else
        let warned := decide (cfg.version ≠ DefaultMIGPVersion)
        match args.infile with
        | none => .done ⟨[], warned, .failure⟩
        | some file =>
          (linesTalk args.showPassword
            (fun k username password => queryTalk E cfg username password (rand k)) 0
            (scannedLines chunk file)).bind fun r => .done ⟨r.1, warned, r.2⟩

end Migp
