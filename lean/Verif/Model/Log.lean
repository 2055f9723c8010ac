import Verif.Model.Main
/-!
# What the server program writes to its log

Every function below is the one of the same name (without the `L`) with the messages it logs; `Props/Log` proves that it has the
same result. A message is given without the date and time in front of it and without the newline behind it.
-/
namespace Migp
open Json Bufio Http

/-- A call of package `log`. -/
inductive LogLine where
  /-- a text that is known in full -/
  | text (t : Bytes)
  /-- a fixed text followed by an error; the text of the error is not modelled -/
  | failed (what : Bytes)
  /-- `log.Fatal(err)` -/
  | fatal
deriving DecidableEq

/-- cmd/server/main.go:78 (`first`) and 92: the same text, but for a carriage return in front. -/
def progressText (first : Bool) (successes failures : Nat) : Bytes :=
  (if first then [] else [13]) ++ ascii "Encrypting breach entries: " ++ natDec successes ++ ascii " successes, " ++
    natDec failures ++ ascii " failures"

/-- cmd/server/main.go:80-93 -/
def loadLinesL (E : Ext) (s : Server) (metadata : Bytes) (numVariants : Int) (includeUsernameVariant : Bool) :
    (lines : List Bytes) → (kv : KV) → (successCount failureCount : Nat) → List LogLine × Load
  | [], kv, successCount, failureCount => ([], .done kv successCount failureCount)
  | line :: lines, kv, successCount, failureCount =>
    match splitN2 line 58 with
    | [username, password] =>
      match insert E s username password metadata numVariants includeUsernameVariant kv with
      | (_, .panic p) => ([], .crashed p)
      | (kv, .err _) => loadLinesL E s metadata numVariants includeUsernameVariant lines kv successCount (failureCount + 1)
      | (kv, .ok ()) =>
        let r := loadLinesL E s metadata numVariants includeUsernameVariant lines kv (successCount + 1) failureCount
        (.text (progressText false (successCount + 1) failureCount) :: r.1, r.2)
    | _ => loadLinesL E s metadata numVariants includeUsernameVariant lines kv successCount (failureCount + 1)

/-- cmd/server/main.go:22-97, up to the call of `ListenAndServe`. -/
def serverMainL (E : Ext) (args : ServerArgs) (key : PrivateKey) (stale : Nat → Nat → UInt8)
    (chunk : Nat → Nat) : List LogLine × ServerRun :=
  match serverConfig E args.config key stale with
  | none => ([.fatal], .fatal)
  | some cfg =>
    if args.dumpConfig then ([], .dumped (cfg.marshalJSON E))
    else
      match newCmdServer E cfg with
      | .err _ => ([.fatal], .fatal)
      | .panic _ => ([], .fatal)
      | .ok s =>
        match args.infile with
        | none => ([.fatal], .fatal)
        | some file =>
          let r := loadLinesL E s.migpServer args.metadata args.numVariants args.usernameVariant
              (scannedLines chunk file) s.kv 0 0
          match r.2 with
          | .crashed p => (.text (progressText true 0 0) :: r.1, .crashed p)
          | .done kv successes failures =>
            (.text (progressText true 0 0) :: r.1 ++ [.text (10 :: ascii "Starting MIGP server")],
              .serving s.migpServer kv successes failures)

/-- cmd/server/server.go:105-137. Simplified: writing the response does not fail (else line 134 logs it). -/
def handleEvaluateL (s : Server) (kv : KV) (stale : Nat → Nat → UInt8) (body : Option Bytes) : List LogLine × Res Writer :=
  match body with
  | none => ([.failed (ascii "Request body reading failed:")], .ok (Writer.new.error (statusText 400) 400))
  | some body =>
    let request := ClientRequest.unmarshalJSON stale body ClientRequest.zero
    let w := if request.2 then Writer.new.error (statusText 400) 400 else Writer.new
    let log := if request.2 then [LogLine.failed (ascii "Request body unmarshal failed:")] else []
    match s.handleRequest request.1 kv.get with
    | .panic p => (log, .panic p)
    | .err _ => (log ++ [.failed (ascii "HandleRequest failed:")], .ok (w.error (statusText 500) 500))
    | .ok migpResponse =>
      let w := w.setContentType (ascii "application/octet-stream")
      match migpResponse.marshalBinary with
      | .panic p => (log, .panic p)
      | .err _ => (log ++ [.failed (ascii "Response serialization failed:")], .ok ((w.error (statusText 500) 500).write []))
      | .ok respBody => (log, .ok (w.write respBody))

end Migp
