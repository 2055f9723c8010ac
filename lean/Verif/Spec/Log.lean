import Verif.Go.Basic
/-!
# The log of an import
-/
namespace Migp.Spec

/-- For each line that succeeds, in order: how many have succeeded up to and including it, and how many have failed before it. -/
def progress (outcomes : List Bool) : List (Nat × Nat) :=
  (List.range outcomes.length).filterMap fun i =>
    if outcomes[i]? = some true then some ((outcomes.take (i + 1)).count true, (outcomes.take i).count false) else none

end Migp.Spec
