import Verif.Go.Basic
/-!
# What a file of breached credentials says about a credential

The lines of the file one after the other; no encryption, no buckets, no entries.
-/
namespace Migp.Spec

/-- What is said about a credential. -/
inductive Verdict where
  /-- nothing is known -/
  | clean
  /-- this username with this password is in the breach -/
  | password
  /-- this username with a similar password is in the breach -/
  | similar
  /-- this username is in the breach (the password asked for is empty) -/
  | username
deriving DecidableEq

/-- What one line `u:q` of the file says about the password `p` of its user `u`. `similarTo q` are the passwords that count as
similar to `q`, and `usernames` says whether usernames alone are told. -/
def lineVerdict (usernames : Bool) (similarTo : Bytes → List Bytes) (q p : Bytes) : Verdict :=
  if p = q then .password
  else if p ∈ similarTo q then .similar
  else if usernames ∧ p = [] then .username
  else .clean

/-- What a file says about `u:p`: what the first line of `u` that says anything says. -/
def fileVerdict (usernames : Bool) (similarTo : Bytes → List Bytes) : List (Bytes × Bytes) → Bytes → Bytes → Verdict
  | [], _, _ => .clean
  | (u', q) :: lines, u, p =>
    if u' = u ∧ lineVerdict usernames similarTo q p ≠ .clean then lineVerdict usernames similarTo q p
    else fileVerdict usernames similarTo lines u p

end Migp.Spec
