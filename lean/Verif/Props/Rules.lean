import Verif.Model.Rules
/-!
# C42: the shipped rule text is well formed

`dasRulesJSONString` is the text of `dasrules.go`, byte for byte; `NewRDasMutator` decodes it with the
model of `encoding/json`. The statement does not mention the table `dasRules` that the rest of the model
uses: `C42_rules_text` says they are the same rules.
-/
namespace Migp.Props
open Migp.Mutator

set_option maxRecDepth 100000 in
/-- C42: decoding the shipped text gives exactly the table used everywhere else in the model. -/
theorem C42_rules_text : NewRDasMutator dasRulesJSONString = .ok dasRules := by
  decide +kernel

/-- C42: the shipped text decodes into 323 rules, each of a known type; `s` rules have something to search
for, `i` rules something to insert, and a `d` rule deletes something. -/
theorem C42_rules_wf : ∃ rules, NewRDasMutator dasRulesJSONString = .ok rules ∧ rules.length = 323 ∧
    ∀ r ∈ rules,
      (r.ruleType = ascii "c" ∨ r.ruleType = ascii "d" ∨ r.ruleType = ascii "i" ∨ r.ruleType = ascii "s") ∧
      (r.ruleType = ascii "s" → r.string1 ≠ []) ∧
      (r.ruleType = ascii "i" → r.string1 ≠ []) ∧
      (r.ruleType = ascii "d" → r.position ≠ 0) :=
  ⟨dasRules, C42_rules_text, by decide +kernel, by decide +kernel⟩

/-- C42: `NewRDasMutator` does panic on other texts: an unterminated array, a rule whose position is a
string. The shipped text is not among them. -/
theorem C42_bad_text :
    NewRDasMutator (ascii "[{\"ruletype\":\"c\"}") = .panic .dasRules ∧
    NewRDasMutator (ascii "[{\"ruletype\":\"c\",\"position\":\"1\"}]") = .panic .dasRules := by
  decide +kernel

end Migp.Props
