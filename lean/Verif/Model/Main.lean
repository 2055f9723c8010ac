import Verif.Model.Exchange
import Verif.Model.Http
import Verif.Go.Bufio
import Verif.Go.BytesPkg
/-!
# The two programs: `cmd/server/main.go` and `cmd/client/main.go`

Not modelled: parsing of the command line, log lines on standard error (those of the server are in `Model/Log`; but for the warning about versions,
which is a flag of the result), and failures to write to standard output.
-/
namespace Migp
open Json Bufio

/-- What loading the input file leads to: the store and the counters, or a crash of the process (a panic in
`main` is not recovered). -/
inductive Load where
  | done (kv : KV) (successes failures : Nat)
  | crashed (p : Panic)

/-- cmd/server/main.go:77-93: the loop over the lines. -/
def loadLines (E : Ext) (s : Server) (metadata : Bytes) (numVariants : Int) (includeUsernameVariant : Bool) :
    (lines : List Bytes) → (kv : KV) → (successCount failureCount : Nat) → Load
  | [], kv, successCount, failureCount => .done kv successCount failureCount
  | line :: lines, kv, successCount, failureCount =>
    match splitN2 line 58 with
    | [username, password] =>
      match insert E s username password metadata numVariants includeUsernameVariant kv with
      | (_, .panic p) => .crashed p
      | (kv, .err _) =>
        loadLines E s metadata numVariants includeUsernameVariant lines kv successCount (failureCount + 1)
      | (kv, .ok ()) =>
        loadLines E s metadata numVariants includeUsernameVariant lines kv (successCount + 1) failureCount
    | _ =>
      -- fewer than two fields
      loadLines E s metadata numVariants includeUsernameVariant lines kv successCount (failureCount + 1)

/-- The flags of the server (cmd/server/main.go:24-36) and the files they name. `config` is absent without `-config`; a file
is `none` if it cannot be opened or read. -/
structure ServerArgs where
  config : Option (Option Bytes)
  dumpConfig : Bool
  metadata : Bytes
  numVariants : Int
  usernameVariant : Bool
  infile : Option Bytes

/-- What the server program does. -/
inductive ServerRun where
  /-- `log.Fatal`, or a panic in one of the constructors: it exits before reading any credential -/
  | fatal
  /-- `-dump-config`: it prints this and exits -/
  | dumped (out : Bytes)
  | crashed (p : Panic)
  /-- it has loaded the file and serves -/
  | serving (s : Server) (kv : KV) (successes failures : Nat)

/-- cmd/server/main.go:38-50: the configuration (`none` is `log.Fatal`). -/
def serverConfig (E : Ext) (config : Option (Option Bytes)) (key : PrivateKey)
    (stale : Nat → Nat → UInt8) : Option ServerConfig :=
  match config with
  | none => some (DefaultServerConfig key)
  | some none => none
  | some (some data) =>
    match ServerConfig.unmarshalJSON E stale data with
    | .ok cfg => some cfg
    | _ => none

/-- cmd/server/main.go:22-97. `key` is the private key made for a default configuration, `chunk` the sizes of the
pieces in which the input is read, `stale` what spare capacity of slices holds. -/
def serverMain (E : Ext) (args : ServerArgs) (key : PrivateKey) (stale : Nat → Nat → UInt8)
    (chunk : Nat → Nat) : ServerRun :=
  match serverConfig E args.config key stale with
  | none => .fatal
  | some cfg =>
    if args.dumpConfig then .dumped (cfg.marshalJSON E)
    else
      match newCmdServer E cfg with
      | .err _ => .fatal
      | .panic _ => .fatal
      | .ok s =>
        match args.infile with
        | none => .fatal
        | some file =>
          match loadLines E s.migpServer args.metadata args.numVariants args.usernameVariant
              (scannedLines chunk file) s.kv 0 0 with
          | .crashed p => .crashed p
          | .done kv successes failures => .serving s.migpServer kv successes failures

/-- cmd/client/main.go:96-109: the JSON object for one answer. `omitempty` leaves out empty strings. -/
def clientObject (showPassword : Bool) (username password : Bytes) (status : BreachStatus)
    (metadata : Option Bytes) : Bytes :=
  let password := if !showPassword then [] else password
  let metadata := metadata.getD []
  encObject
    ([(ascii "username", quote username)] ++
     (if password = [] then [] else [(ascii "password", quote password)]) ++
     [(ascii "status", quote (ascii status.toString))] ++
     (if metadata = [] then [] else [(ascii "metadata", quote metadata)]))

/-- How a program ends: exit status 0, exit status 1, a panic. -/
inductive Exit where
  | ok
  | failure
  | panic (p : Panic)
deriving DecidableEq

/-- cmd/client/main.go:84-116: the loop over the lines. `query k` is what the `k`-th call of `Query` returns. Gives
standard output and how the program ends. -/
def queryLines (showPassword : Bool) (query : Nat → Bytes → Bytes → Out) :
    (k : Nat) → (lines : List Bytes) → Bytes × Exit
  | _, [] => ([], .ok)
  | k, line :: lines =>
    match splitN2 line 58 with
    | [username, password] =>
      match query k username password with
      | .panic p => ([], .panic p)
      | .ret _ _ (some _) => ([], .failure)
      | .ret status metadata none =>
        let out := clientObject showPassword username password status metadata ++ [10]
        let r := queryLines showPassword query (k + 1) lines
        (out ++ r.1, r.2)
    | _ => queryLines showPassword query k lines

/-- The flags of the client (cmd/client/main.go:26-32) and the files they name. -/
structure ClientArgs where
  config : Option (Option Bytes)
  dumpConfig : Bool
  showPassword : Bool
  infile : Option Bytes

/-- What the client program has printed, whether it warned about the version, and how it ended. -/
structure ClientRun where
  stdout : Bytes
  warned : Bool
  exit : Exit
deriving DecidableEq

/-- cmd/client/main.go:34-58: the configuration (`none` is `log.Fatal`). `get` is the outcome of the request for
`/config`; a body that cannot be read to the end is not modelled beyond `none`. -/
def clientConfig (config : Option (Option Bytes)) (get : Transport) (stale : Nat → Nat → UInt8) :
    Option Config :=
  match config with
  | some none => none
  | some (some data) =>
    let r := Config.unmarshalJSON stale data Config.zero
    if r.2 then none else some r.1
  | none =>
    match get with
    | .failed => none
    | .reply status body =>
      if status ≠ 200 then none
      else
        match body with
        | none => none
        | some body =>
          let r := Config.decodeJSON stale body Config.zero
          if r.2 then none else some r.1

/-- cmd/client/main.go:21-117. `post k` is the network at the `k`-th query and `rand k` its blinds. -/
def clientMain (E : Ext) (args : ClientArgs) (get : Transport) (post : Nat → Bytes → Transport)
    (rand : Nat → (S : Suite) → ZMod S.q) (stale : Nat → Nat → UInt8) (chunk : Nat → Nat) : ClientRun :=
  match clientConfig args.config get stale with
  | none => ⟨[], false, .failure⟩
  | some cfg =>
    if args.dumpConfig then ⟨cfg.marshalJSON, false, .ok⟩
    else
      let warned := decide (cfg.version ≠ DefaultMIGPVersion)
      match args.infile with
      | none => ⟨[], warned, .failure⟩
      | some file =>
        let r := queryLines args.showPassword
          (fun k username password => Query E cfg (post k) username password (rand k)) 0
          (scannedLines chunk file)
        ⟨r.1, warned, r.2⟩

end Migp
