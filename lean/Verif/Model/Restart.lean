import Verif.Model.Main
/-!
# The server process among crashes and restarts

The server program (`cmd/server/main.go`) as a process that can be killed and started again at any time, with a credentials file
that can be replaced, and clients (`Query`) that may ask at any time. The import is one line per step; nothing is stored outside
the memory of the process.

Simplifications: the file is opened at the start and its contents are those of that moment (a file is replaced by renaming, not written
to in place; a start while there is no file ends at once, as one that is killed at once); between the end of the import and the call of `Accept` nothing happens; killing a process in the
middle of a step is killing it before or after the step, since its memory is lost anyway. A request that was under way when
the process was killed, or whose connection broke, is `lost` or `cut`.
-/
namespace Migp
open Bufio

/-- The flags of the server, without the credentials file. -/
structure BootArgs where
  config : Option (Option Bytes)
  dumpConfig : Bool
  metadata : Bytes
  numVariants : Int
  usernameVariant : Bool

/-- The flags and files of the server program (cmd/server/main.go:24-36), with these contents of the credentials file. -/
def BootArgs.on (args : BootArgs) (opened : Bytes) : ServerArgs :=
  ⟨args.config, args.dumpConfig, args.metadata, args.numVariants, args.usernameVariant, some opened⟩

/-- What the server process does. `opened` are the bytes that reading the credentials file delivers. -/
inductive Proc where
  | down
  /-- cmd/server/main.go:77-93, with the lines that are left -/
  | loading (opened : Bytes) (s : Server) (rest : List Bytes) (kv : KV)
  /-- cmd/server/main.go:96 -/
  | serving (opened : Bytes) (s : Server) (kv : KV)

/-- The credentials file in its place, and the process. -/
structure World where
  file : Bytes
  proc : Proc

/-- cmd/server/main.go:22-76: the program starts. Reading the file ends, or fails, after `readable` bytes
(bufio/scan.go treats an error of the reader like the end of the file, and main.go does not call `scanner.Err`). -/
def bootProc (E : Ext) (args : BootArgs) (file : Bytes) (key : PrivateKey) (stale : Nat → Nat → UInt8) (chunk : Nat → Nat)
    (readable : Nat) : Proc :=
  match serverConfig E args.config key stale with
  | none => .down
  | some cfg =>
    if args.dumpConfig then .down
    else
      match newCmdServer E cfg with
      | .err _ => .down
      | .panic _ => .down
      | .ok s => .loading (file.take readable) s.migpServer (scannedLines chunk (file.take readable)) s.kv

/-- cmd/server/main.go:77-96: the next thing a process does: one line, or, after the last one, `ListenAndServe`. A panic ends it. -/
def Proc.step (E : Ext) (args : BootArgs) : Proc → Proc
  | .down => .down
  | .loading opened s (line :: rest) kv =>
    match splitN2 line 58 with
    | [username, password] =>
      match insert E s username password args.metadata args.numVariants args.usernameVariant kv with
      | (_, .panic _) => .down
      | (kv, _) => .loading opened s rest kv
    | _ => .loading opened s rest kv
  | .loading opened s [] kv => .serving opened s kv
  | .serving opened s kv => .serving opened s kv

/-- How a request fares: it is answered; it is lost, or the connection is; the reply is cut off in its body. -/
inductive Luck where
  | arrives
  | lost
  | cut
deriving DecidableEq

/-- A POST to `/evaluate` as the client sees it. Nobody listens before the import is done (cmd/server/main.go:96). -/
def Proc.post (stale : Nat → Nat → UInt8) (luck : Luck) : Proc → Bytes → Transport
  | .serving _ s kv, body =>
    match luck, deliver s kv stale (ascii "/evaluate") body with
    | .arrives, t => t
    | .cut, .reply status _ => .reply status none
    | _, _ => .failed
  | _, _ => .failed

/-- What can happen. -/
inductive Event where
  /-- the credentials file is replaced -/
  | replace (file : Bytes)
  /-- the server program is started, if it is not running; `key` is the private key it generates -/
  | start (key : PrivateKey) (stale : Nat → Nat → UInt8) (chunk : Nat → Nat) (readable : Nat)
  /-- the process does the next thing -/
  | step
  /-- the process is killed -/
  | kill
  /-- a client with the public configuration asks about a credential -/
  | query (username password : Bytes) (rand : (S : Suite) → ZMod S.q) (stale : Nat → Nat → UInt8) (luck : Luck)

/-- The world after an event. -/
def World.next (E : Ext) (args : BootArgs) (w : World) : Event → World
  | .replace file => { w with file }
  | .start key stale chunk readable =>
    match w.proc with
    | .down => { w with proc := bootProc E args w.file key stale chunk readable }
    | _ => w
  | .step => { w with proc := w.proc.step E args }
  | .kill => { w with proc := .down }
  | .query .. => w

/-- The world after a list of events. -/
def World.after (E : Ext) (args : BootArgs) (w : World) (es : List Event) : World := es.foldl (World.next E args) w

/-- A query and what `Query` (client.go:157-200) returned. -/
structure Asked where
  username : Bytes
  password : Bytes
  out : Out

/-- All the queries among the events, with what was returned. -/
def World.run (E : Ext) (args : BootArgs) (ccfg : Config) : (w : World) → List Event → List Asked
  | _, [] => []
  | w, .query username password rand stale luck :: es =>
    ⟨username, password, Query E ccfg (w.proc.post stale luck) username password rand⟩ :: w.run E args ccfg es
  | w, e :: es => (w.next E args e).run E args ccfg es

end Migp
