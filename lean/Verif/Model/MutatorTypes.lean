import Verif.Go.Basic
/-!
# Rule type of `pkg/mutator/rdasmutator.go`
-/
namespace Migp.Mutator

/-- rdasmutator.go:30-35 -/
structure RDasRule where
  ruleType : GoString
  position : Int
  string1 : GoString
  string2 : GoString
deriving DecidableEq, Repr

end Migp.Mutator
