import Verif.Spec.ServerConc
/-!
# What clients of a busy server see
-/
namespace Migp.Spec

/-- The credentials that inserting this record may store: the password itself; and if there are variants of it, these
and the empty password (if asked for). -/
def Record.MayStore (r : Record) (x : Stored) : Prop :=
  x = ⟨r.username, r.password, 1, r.metadata⟩ ∨
    ∃ vs, Mutator.mutate Mutator.dasRules r.password r.numVariants = .ok vs ∧ x ∈ r.stored vs

/-- The credentials that inserting this record stores, if it can be inserted. -/
def Record.inserts (E : Ext) (s : Server) (r : Record) : List Stored :=
  match (insertRecord E s r newKVStore).2, Mutator.mutate Mutator.dasRules r.password r.numVariants with
  | .ok _, .ok vs => r.stored vs
  | _, _ => []

/-- What loading these records stores, in order. -/
def storedBy (E : Ext) (s : Server) (rs : List Record) : List Stored := rs.flatMap (Record.inserts E s)

/-- What a client's HTTP library reports when the goroutine that handles its request has ended like this: what the
handler wrote; a panic closes the connection, and a redirect is not followed. -/
def replySeen : Res JobOut → Transport
  | .ok (.served (some w)) => .reply w.reply.status (some w.reply.body)
  | _ => .failed

end Migp.Spec
