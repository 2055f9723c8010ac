import Verif.Go.Basic
/-!
# The ideal breach database

What a user of the system thinks is stored and looked up: credentials with a flag and metadata, no
encryption, no buckets.
-/
namespace Migp.Spec

/-- A record to insert: a breached credential with metadata, the number of password variants to add
and whether to add a username-only entry. -/
structure Record where
  username : Bytes
  password : Bytes
  metadata : Bytes
  numVariants : Int
  withUsername : Bool

/-- One stored credential. Flags: 0 dummy, 1 breached password, 2 similar password, 3 breached
username. -/
structure Stored where
  username : Bytes
  password : Bytes
  flag : UInt8
  metadata : Bytes
deriving DecidableEq

/-- What inserting a record stores, in order, given the variants of its password: the breached
password, each variant as similar, and the username with an empty password. -/
def Record.stored (r : Record) (variants : List Bytes) : List Stored :=
  [⟨r.username, r.password, 1, r.metadata⟩] ++
  variants.map (fun v => ⟨r.username, v, 2, r.metadata⟩) ++
  (if r.withUsername then [⟨r.username, [], 3, r.metadata⟩] else [])

/-- The earliest stored entry for exactly this credential. -/
def lookup (db : List Stored) (u p : Bytes) : Option Stored :=
  db.find? (fun x => x.username = u ∧ x.password = p)

end Migp.Spec
