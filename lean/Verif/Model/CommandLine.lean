import Verif.Model.Main
import Verif.Go.Flag
/-!
# The command lines of the two programs

Not modelled: the usage texts, and `http.ListenAndServe` (what the server does once it serves is in `Verif.Model.Http`).
-/
namespace Migp

/-- What a program finds in the file system: the contents of a file that is read as a whole (`none`: an error), and the
bytes that a scanner gets from a file until its end or the first error (`none`: it cannot be opened). `stdin` are the bytes
from standard input. -/
structure Files where
  readFile : GoString → Option Bytes
  scanFile : GoString → Option Bytes
  stdin : Bytes

/-- The variables that the flags of the server set (cmd/server/main.go:24-26). -/
structure ServerFlags where
  config : GoString
  listen : GoString
  dumpConfig : Bool
  infile : GoString
  metadata : GoString
  numVariants : Int
  usernameVariant : Bool
deriving DecidableEq

/-- cmd/server/main.go:28-34: the values without flags. -/
def ServerFlags.defaults : ServerFlags :=
  { config := ascii "", listen := ascii "localhost:8080", dumpConfig := false, infile := ascii "-",
    metadata := ascii "", numVariants := 9, usernameVariant := true }

/-- cmd/server/main.go:28-34: the flags. -/
def ServerFlags.formal (name : GoString) : Option (FlagVar ServerFlags) :=
  if name = ascii "config" then some (.string fun v f => { f with config := v })
  else if name = ascii "listen" then some (.string fun v f => { f with listen := v })
  else if name = ascii "dump-config" then some (.bool fun v f => { f with dumpConfig := v })
  else if name = ascii "infile" then some (.string fun v f => { f with infile := v })
  else if name = ascii "metadata" then some (.string fun v f => { f with metadata := v })
  else if name = ascii "num-variants" then some (.int fun v f => { f with numVariants := v })
  else if name = ascii "username-variant" then some (.bool fun v f => { f with usernameVariant := v })
  else none

/-- cmd/server/main.go:38-44, 69-75, 84: the variables as `serverMain` uses them. -/
def ServerFlags.args (f : ServerFlags) (files : Files) : ServerArgs :=
  { config := if f.config ≠ ascii "" then some (files.readFile f.config) else none
    dumpConfig := f.dumpConfig
    metadata := f.metadata
    numVariants := f.numVariants
    usernameVariant := f.usernameVariant
    infile := if f.infile ≠ ascii "-" then files.scanFile f.infile else some files.stdin }

/-- What comes of starting the server. -/
inductive ServerProgram where
  /-- `flag.Parse` has ended the program with this exit status -/
  | usage (status : Nat)
  /-- it has run; if it serves, then at this address -/
  | ran (run : ServerRun) (listen : GoString)

/-- cmd/server/main.go:22-97, with the words of the command line (without the program's name). -/
def serverProgram (E : Ext) (argv : List GoString) (files : Files) (key : PrivateKey) (stale : Nat → Nat → UInt8)
    (chunk : Nat → Nat) : ServerProgram :=
  match flagParse ServerFlags.formal ServerFlags.defaults argv with
  | .help => .usage 0
  | .bad => .usage 2
  | .parsed f _ => .ran (serverMain E (f.args files) key stale chunk) f.listen

/-- The variables that the flags of the client set (cmd/client/main.go:22-23). -/
structure ClientFlags where
  config : GoString
  dumpConfig : Bool
  showPassword : Bool
  infile : GoString
  target : GoString
deriving DecidableEq

/-- cmd/client/main.go:26-30: the values without flags. -/
def ClientFlags.defaults : ClientFlags :=
  { config := ascii "", dumpConfig := false, showPassword := false, infile := ascii "-",
    target := ascii "http://localhost:8080" }

/-- cmd/client/main.go:26-30: the flags. -/
def ClientFlags.formal (name : GoString) : Option (FlagVar ClientFlags) :=
  if name = ascii "config" then some (.string fun v f => { f with config := v })
  else if name = ascii "dump-config" then some (.bool fun v f => { f with dumpConfig := v })
  else if name = ascii "show-password" then some (.bool fun v f => { f with showPassword := v })
  else if name = ascii "infile" then some (.string fun v f => { f with infile := v })
  else if name = ascii "target" then some (.string fun v f => { f with target := v })
  else none

/-- cmd/client/main.go:35-42, 72-78, 91: the variables as `clientMain` uses them. -/
def ClientFlags.args (f : ClientFlags) (files : Files) : ClientArgs :=
  { config := if f.config ≠ ascii "" then some (files.readFile f.config) else none
    dumpConfig := f.dumpConfig
    showPassword := f.showPassword
    infile := if f.infile ≠ ascii "-" then files.scanFile f.infile else some files.stdin }

/-- What comes of starting the client. -/
inductive ClientProgram where
  /-- `flag.Parse` has ended the program with this exit status -/
  | usage (status : Nat)
  | ran (run : ClientRun)

/-- cmd/client/main.go:21-117, with the words of the command line. `get url` is the outcome of `http.Get`, `post k url` the
network at the `k`-th query. -/
def clientProgram (E : Ext) (argv : List GoString) (files : Files) (get : GoString → Transport)
    (post : Nat → GoString → Bytes → Transport) (rand : Nat → (S : Suite) → ZMod S.q) (stale : Nat → Nat → UInt8)
    (chunk : Nat → Nat) : ClientProgram :=
  match flagParse ClientFlags.formal ClientFlags.defaults argv with
  | .help => .usage 0
  | .bad => .usage 2
  | .parsed f _ =>
    .ran (clientMain E (f.args files) (get (f.target ++ ascii "/config"))
      (fun k => post k (f.target ++ ascii "/evaluate")) rand stale chunk)

end Migp
