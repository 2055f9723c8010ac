import Verif.Model.DasRulesText
import Verif.Model.DasRules
import Verif.Go.JsonStruct
/-!
# `pkg/mutator/rdasmutator.go:43-50`: `NewRDasMutator`
-/
namespace Migp.Mutator
open Json

/-- rdasmutator.go:30-35: the struct tags. -/
def ruleFields : List (JField RDasRule) :=
  [⟨ascii "ruletype", fun _ v r => let x := setString v r.ruleType; ({ r with ruleType := x.1 }, x.2)⟩,
   ⟨ascii "position", fun _ v r => let x := setInt v r.position; ({ r with position := x.1 }, x.2)⟩,
   ⟨ascii "string1", fun _ v r => let x := setString v r.string1; ({ r with string1 := x.1 }, x.2)⟩,
   ⟨ascii "string2", fun _ v r => let x := setString v r.string2; ({ r with string2 := x.1 }, x.2)⟩]

/-- `d.array` into a nil `[]RDasRule`: every element starts as the zero rule. -/
def setRules : List JVal → List RDasRule × Bool
  | [] => ([], false)
  | v :: vs =>
    let x := setStruct ruleFields (fun _ _ => 0) v ⟨[], 0, [], []⟩
    ((x.1 :: (setRules vs).1), x.2 || (setRules vs).2)

/-- rdasmutator.go:43-50. -/
def NewRDasMutator (text : GoString) : Res (List RDasRule) :=
  match parse text with
  | some (.arr es) => if (setRules es).2 then .panic .dasRules else .ok (setRules es).1
  | some .null => .ok []
  | _ => .panic .dasRules

end Migp.Mutator
