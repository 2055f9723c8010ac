import Verif.Model.Main
import Verif.Go.Reader
/-!
# The loops of the two programs on input that comes in pieces

As in `Model/Main`, but with an arbitrary reader as input, and with every call of `Read` in the trace: `os.Stdin` may be a pipe or a terminal
on which more may come at any time, or never.
-/
namespace Migp
open Bufio

/-- What the client program does, in order. -/
inductive ClientEvent where
  /-- a call of `Read`, and what it brought -/
  | read (got : Option Bytes)
  /-- `fmt.Println` -/
  | print (out : Bytes)
  /-- it ends -/
  | exit (e : Exit)
deriving DecidableEq

/-- cmd/client/main.go:84-116, on the events of the scanner. `query k` is what the `k`-th call of `Query` returns. -/
def clientEvents (showPassword : Bool) (query : Nat → Bytes → Bytes → Out) : (k : Nat) → List InEvent → List ClientEvent
  | _, [] => []
  | k, .read got :: t => .read got :: clientEvents showPassword query k t
  | k, .line line :: t =>
    match splitN2 line 58 with
    | [username, password] =>
      match query k username password with
      | .panic p => [.exit (.panic p)]
      | .ret _ _ (some _) => [.exit .failure]
      | .ret status metadata none =>
        .print (clientObject showPassword username password status metadata ++ [10]) :: clientEvents showPassword query (k + 1) t
    | _ => clientEvents showPassword query k t
  | _, .stop :: _ => [.exit .ok]

/-- What the server program does, in order. -/
inductive ImportEvent where
  /-- a call of `Read`, and what it brought -/
  | read (got : Option Bytes)
  /-- a panic -/
  | crash (p : Panic)
  /-- `http.ListenAndServe`, with this store and these counters -/
  | listen (kv : KV) (successes failures : Nat)

/-- cmd/server/main.go:75-96, on the events of the scanner. -/
def importEvents (E : Ext) (s : Server) (metadata : Bytes) (numVariants : Int) (includeUsernameVariant : Bool) :
    (kv : KV) → (successCount failureCount : Nat) → List InEvent → List ImportEvent
  | _, _, _, [] => []
  | kv, a, b, .read got :: t => .read got :: importEvents E s metadata numVariants includeUsernameVariant kv a b t
  | kv, a, b, .line line :: t =>
    match splitN2 line 58 with
    | [username, password] =>
      match insert E s username password metadata numVariants includeUsernameVariant kv with
      | (_, .panic p) => [.crash p]
      | (kv, .err _) => importEvents E s metadata numVariants includeUsernameVariant kv a (b + 1) t
      | (kv, .ok ()) => importEvents E s metadata numVariants includeUsernameVariant kv (a + 1) b t
    | _ => importEvents E s metadata numVariants includeUsernameVariant kv a (b + 1) t
  | kv, a, b, .stop :: _ => [.listen kv a b]

end Migp
