import Verif.Model.MutatorTypes
/-!
# `pkg/mutator/dasrules.go:7-1946`

GENERATED by `tools/gen_rules.py`: the rule table obtained by decoding `dasRulesJSONString`
(`Verif.Props.Rules` proves that decoding the embedded text gives exactly this list).
-/
namespace Migp.Mutator

/-- dasrules.go:7-1946, the decoded rules in order. Each line: ruletype, position, string1,
string2. -/
def dasRules : List RDasRule := [
  ⟨[99], 0, [], []⟩,
  ⟨[100], -1, [], []⟩,
  ⟨[100], -2, [], []⟩,
  ⟨[100], -3, [], []⟩,
  ⟨[105], -1, [48], []⟩,
  ⟨[105], 0, [49], []⟩,
  ⟨[105], -1, [97], []⟩,
  ⟨[105], -1, [113], []⟩,
  ⟨[105], 0, [48], []⟩,
  ⟨[100], 1, [], []⟩,
  ⟨[105], 0, [97], []⟩,
  ⟨[105], 0, [53], []⟩,
  ⟨[105], 0, [49, 50, 51], []⟩,
  ⟨[100], 2, [], []⟩,
  ⟨[105], 0, [50], []⟩,
  ⟨[105], 0, [55], []⟩,
  ⟨[105], -1, [122], []⟩,
  ⟨[105], 0, [57], []⟩,
  ⟨[100], 3, [], []⟩,
  ⟨[105], -1, [48, 48], []⟩,
  ⟨[105], 0, [54], []⟩,
  ⟨[105], 0, [51], []⟩,
  ⟨[105], 0, [56], []⟩,
  ⟨[105], 0, [49, 49], []⟩,
  ⟨[105], 0, [52], []⟩,
  ⟨[105], -1, [119], []⟩,
  ⟨[105], 0, [98], []⟩,
  ⟨[105], 0, [113], []⟩,
  ⟨[105], 0, [48, 48], []⟩,
  ⟨[105], 0, [57, 57], []⟩,
  ⟨[105], 0, [49, 50], []⟩,
  ⟨[105], 0, [115], []⟩,
  ⟨[105], 0, [57, 56], []⟩,
  ⟨[105], -1, [49], []⟩,
  ⟨[105], -1, [115], []⟩,
  ⟨[105], 0, [55, 56], []⟩,
  ⟨[105], -1, [108], []⟩,
  ⟨[105], 0, [112], []⟩,
  ⟨[105], 0, [56, 57], []⟩,
  ⟨[105], 0, [48, 48, 48], []⟩,
  ⟨[105], 0, [57, 48], []⟩,
  ⟨[105], 0, [122], []⟩,
  ⟨[105], 0, [49, 48], []⟩,
  ⟨[105], 0, [50, 51], []⟩,
  ⟨[105], 0, [48, 49], []⟩,
  ⟨[105], 0, [109], []⟩,
  ⟨[105], 0, [114], []⟩,
  ⟨[105], -1, [120], []⟩,
  ⟨[105], -1, [48, 48, 48], []⟩,
  ⟨[105], 0, [107], []⟩,
  ⟨[105], 0, [101], []⟩,
  ⟨[105], 0, [50, 50], []⟩,
  ⟨[105], 0, [102], []⟩,
  ⟨[105], 0, [110], []⟩,
  ⟨[105], 0, [56, 56], []⟩,
  ⟨[105], 0, [119], []⟩,
  ⟨[105], -1, [49, 57], []⟩,
  ⟨[105], -1, [99], []⟩,
  ⟨[105], 0, [49, 51], []⟩,
  ⟨[105], -1, [109], []⟩,
  ⟨[105], -1, [112], []⟩,
  ⟨[105], 0, [52, 53, 54], []⟩,
  ⟨[105], 0, [50, 49], []⟩,
  ⟨[105], -1, [121], []⟩,
  ⟨[105], 0, [55, 55, 55], []⟩,
  ⟨[105], 0, [100], []⟩,
  ⟨[105], -1, [98], []⟩,
  ⟨[105], -1, [49, 48], []⟩,
  ⟨[115], 0, [48], [111]⟩,
  ⟨[105], 0, [48, 56], []⟩,
  ⟨[105], 0, [48, 55], []⟩,
  ⟨[105], -1, [103], []⟩,
  ⟨[105], 0, [48, 48, 55], []⟩,
  ⟨[105], -1, [100], []⟩,
  ⟨[105], 0, [121], []⟩,
  ⟨[105], -1, [104], []⟩,
  ⟨[105], 0, [55, 55], []⟩,
  ⟨[105], 0, [116], []⟩,
  ⟨[105], -1, [107], []⟩,
  ⟨[105], 0, [53, 53], []⟩,
  ⟨[105], -1, [102], []⟩,
  ⟨[105], 0, [48, 57], []⟩,
  ⟨[105], 0, [99], []⟩,
  ⟨[105], 0, [65], []⟩,
  ⟨[105], 0, [53, 54], []⟩,
  ⟨[105], 0, [106], []⟩,
  ⟨[105], 0, [118], []⟩,
  ⟨[105], 0, [52, 53], []⟩,
  ⟨[105], 0, [54, 55], []⟩,
  ⟨[105], 0, [105], []⟩,
  ⟨[115], 0, [111], [48]⟩,
  ⟨[105], 0, [48, 48, 49], []⟩,
  ⟨[105], -1, [65], []⟩,
  ⟨[105], -1, [116], []⟩,
  ⟨[105], 0, [49, 48, 49], []⟩,
  ⟨[105], 0, [108], []⟩,
  ⟨[105], -1, [48, 49], []⟩,
  ⟨[105], 0, [57, 50], []⟩,
  ⟨[105], -1, [114], []⟩,
  ⟨[105], 0, [103], []⟩,
  ⟨[105], 0, [48, 50], []⟩,
  ⟨[105], -1, [110], []⟩,
  ⟨[105], 0, [57, 49], []⟩,
  ⟨[105], 0, [111], []⟩,
  ⟨[105], -1, [51], []⟩,
  ⟨[105], 0, [104], []⟩,
  ⟨[105], 0, [51, 50, 49], []⟩,
  ⟨[105], 0, [57, 53], []⟩,
  ⟨[105], -1, [49, 50, 51], []⟩,
  ⟨[105], 0, [51, 51], []⟩,
  ⟨[105], 0, [120], []⟩,
  ⟨[105], 0, [56, 53], []⟩,
  ⟨[105], 0, [49, 55], []⟩,
  ⟨[105], 0, [48, 54], []⟩,
  ⟨[105], 0, [54, 54], []⟩,
  ⟨[105], -1, [106], []⟩,
  ⟨[105], 0, [49, 57], []⟩,
  ⟨[105], 0, [48, 53], []⟩,
  ⟨[105], 0, [48, 51], []⟩,
  ⟨[105], 0, [54, 54, 54], []⟩,
  ⟨[105], 0, [50, 52], []⟩,
  ⟨[105], 0, [54, 57], []⟩,
  ⟨[105], 0, [117], []⟩,
  ⟨[105], 0, [49, 54], []⟩,
  ⟨[105], 0, [56, 48], []⟩,
  ⟨[105], 0, [81], []⟩,
  ⟨[105], 0, [56, 55], []⟩,
  ⟨[105], 0, [55, 57], []⟩,
  ⟨[105], 0, [56, 54], []⟩,
  ⟨[105], 0, [57, 51], []⟩,
  ⟨[105], 0, [57, 54], []⟩,
  ⟨[105], -1, [101], []⟩,
  ⟨[105], 0, [54, 53], []⟩,
  ⟨[105], 0, [49, 53], []⟩,
  ⟨[105], 0, [50, 53], []⟩,
  ⟨[105], -1, [55], []⟩,
  ⟨[105], 0, [52, 52], []⟩,
  ⟨[105], -1, [52], []⟩,
  ⟨[105], 0, [57, 55], []⟩,
  ⟨[105], -1, [48, 53], []⟩,
  ⟨[105], -1, [48, 57], []⟩,
  ⟨[105], -1, [56], []⟩,
  ⟨[105], -1, [50], []⟩,
  ⟨[105], 0, [56, 51], []⟩,
  ⟨[105], 0, [53, 55], []⟩,
  ⟨[105], 0, [53, 48], []⟩,
  ⟨[105], 0, [57, 52], []⟩,
  ⟨[105], 0, [53, 52], []⟩,
  ⟨[105], -1, [49, 49], []⟩,
  ⟨[105], -1, [48, 56], []⟩,
  ⟨[105], 0, [54, 49], []⟩,
  ⟨[105], 0, [50, 48], []⟩,
  ⟨[105], 0, [49, 52], []⟩,
  ⟨[105], -1, [118], []⟩,
  ⟨[105], 0, [56, 49], []⟩,
  ⟨[105], 0, [55, 52], []⟩,
  ⟨[105], -1, [53], []⟩,
  ⟨[105], 0, [55, 54], []⟩,
  ⟨[105], 0, [51, 52], []⟩,
  ⟨[105], 0, [49, 56], []⟩,
  ⟨[105], 0, [56, 50], []⟩,
  ⟨[105], 0, [52, 49], []⟩,
  ⟨[105], 0, [48, 52], []⟩,
  ⟨[105], 0, [75], []⟩,
  ⟨[105], -1, [48, 54], []⟩,
  ⟨[105], 0, [83], []⟩,
  ⟨[105], 0, [86], []⟩,
  ⟨[105], -1, [48, 48, 55], []⟩,
  ⟨[105], 0, [55, 53], []⟩,
  ⟨[105], -1, [48, 50], []⟩,
  ⟨[105], -1, [57], []⟩,
  ⟨[105], 0, [50, 56], []⟩,
  ⟨[105], 0, [53, 51], []⟩,
  ⟨[115], 0, [97, 115, 100, 102], [49, 50, 51, 52]⟩,
  ⟨[115], 0, [49, 50, 51, 52], [97, 115, 100, 102]⟩,
  ⟨[105], 0, [78], []⟩,
  ⟨[105], 0, [56, 52], []⟩,
  ⟨[105], -1, [50, 48], []⟩,
  ⟨[105], 0, [50, 55], []⟩,
  ⟨[105], -1, [81], []⟩,
  ⟨[105], -1, [49, 51], []⟩,
  ⟨[105], 0, [68], []⟩,
  ⟨[105], 0, [74], []⟩,
  ⟨[105], 0, [50, 54], []⟩,
  ⟨[105], 0, [53, 50], []⟩,
  ⟨[105], 0, [50, 57], []⟩,
  ⟨[105], 0, [51, 48], []⟩,
  ⟨[105], 0, [52, 57], []⟩,
  ⟨[105], 0, [53, 56], []⟩,
  ⟨[105], -1, [48, 55], []⟩,
  ⟨[105], 0, [51, 56], []⟩,
  ⟨[105], -1, [90], []⟩,
  ⟨[105], 0, [51, 49], []⟩,
  ⟨[105], -1, [111], []⟩,
  ⟨[105], 0, [55, 50], []⟩,
  ⟨[105], 0, [54, 51], []⟩,
  ⟨[105], 0, [52, 50, 48], []⟩,
  ⟨[115], 0, [51], [101]⟩,
  ⟨[105], 0, [80], []⟩,
  ⟨[105], -1, [48, 52], []⟩,
  ⟨[105], 0, [51, 50], []⟩,
  ⟨[105], -1, [56, 53], []⟩,
  ⟨[105], 0, [82], []⟩,
  ⟨[105], 0, [52, 55], []⟩,
  ⟨[105], -1, [49, 54], []⟩,
  ⟨[105], -1, [105], []⟩,
  ⟨[105], 0, [55, 49], []⟩,
  ⟨[105], 0, [53, 49], []⟩,
  ⟨[105], -1, [49, 50], []⟩,
  ⟨[105], -1, [50, 50], []⟩,
  ⟨[105], -1, [56, 55], []⟩,
  ⟨[105], 0, [109, 97, 110], []⟩,
  ⟨[105], 0, [55, 51], []⟩,
  ⟨[105], 0, [52, 54], []⟩,
  ⟨[105], 0, [51, 53], []⟩,
  ⟨[105], 0, [76], []⟩,
  ⟨[105], 0, [53, 57], []⟩,
  ⟨[105], -1, [57, 56], []⟩,
  ⟨[105], 0, [54, 56], []⟩,
  ⟨[105], -1, [51, 50], []⟩,
  ⟨[105], 0, [54, 48], []⟩,
  ⟨[105], -1, [75], []⟩,
  ⟨[105], 0, [52, 50], []⟩,
  ⟨[105], -1, [50, 55], []⟩,
  ⟨[105], 0, [51, 54], []⟩,
  ⟨[105], -1, [72], []⟩,
  ⟨[105], 0, [54, 52], []⟩,
  ⟨[105], 0, [71], []⟩,
  ⟨[115], 0, [101], [51]⟩,
  ⟨[105], -1, [49, 48, 49], []⟩,
  ⟨[105], -1, [117], []⟩,
  ⟨[105], 0, [90], []⟩,
  ⟨[105], 0, [66], []⟩,
  ⟨[105], 0, [51, 57], []⟩,
  ⟨[105], 0, [98, 111, 121], []⟩,
  ⟨[105], -1, [80], []⟩,
  ⟨[105], 0, [69], []⟩,
  ⟨[105], -1, [55, 57], []⟩,
  ⟨[105], -1, [50, 56], []⟩,
  ⟨[105], 0, [79], []⟩,
  ⟨[105], -1, [51, 48], []⟩,
  ⟨[105], -1, [76], []⟩,
  ⟨[105], -1, [54, 57], []⟩,
  ⟨[105], -1, [68], []⟩,
  ⟨[105], -1, [51, 49], []⟩,
  ⟨[105], -1, [53, 50], []⟩,
  ⟨[105], -1, [52, 53, 54], []⟩,
  ⟨[115], 0, [113, 119, 101, 114], [49, 50, 51, 52]⟩,
  ⟨[115], 0, [53, 54, 55, 56], [113, 119, 101, 114]⟩,
  ⟨[105], -1, [55, 48], []⟩,
  ⟨[115], 0, [113, 119, 101, 114], [53, 54, 55, 56]⟩,
  ⟨[105], -1, [52, 49], []⟩,
  ⟨[105], -1, [83], []⟩,
  ⟨[105], 0, [70], []⟩,
  ⟨[105], 0, [67], []⟩,
  ⟨[105], -1, [49, 53], []⟩,
  ⟨[115], 0, [113, 119, 101], [113, 97, 122]⟩,
  ⟨[115], 0, [113, 97, 122], [113, 119, 101]⟩,
  ⟨[105], -1, [49, 56], []⟩,
  ⟨[105], -1, [51, 54], []⟩,
  ⟨[105], -1, [54, 54], []⟩,
  ⟨[105], -1, [53, 51], []⟩,
  ⟨[105], -1, [87], []⟩,
  ⟨[105], -1, [56, 57], []⟩,
  ⟨[105], 0, [52, 56], []⟩,
  ⟨[105], -1, [73], []⟩,
  ⟨[105], -1, [49, 55], []⟩,
  ⟨[105], 0, [52, 48], []⟩,
  ⟨[105], -1, [79], []⟩,
  ⟨[105], -1, [56, 50], []⟩,
  ⟨[105], -1, [55, 55], []⟩,
  ⟨[105], 0, [88], []⟩,
  ⟨[105], -1, [57, 52], []⟩,
  ⟨[105], -1, [52, 53], []⟩,
  ⟨[105], -1, [53, 49], []⟩,
  ⟨[105], -1, [53, 48], []⟩,
  ⟨[105], 0, [105, 116, 97], []⟩,
  ⟨[105], 0, [87], []⟩,
  ⟨[105], -1, [54, 53], []⟩,
  ⟨[105], -1, [49, 52], []⟩,
  ⟨[105], -1, [57, 51], []⟩,
  ⟨[105], -1, [50, 49], []⟩,
  ⟨[115], 0, [49, 50, 51, 52], [113, 119, 101, 114]⟩,
  ⟨[105], -1, [82], []⟩,
  ⟨[105], -1, [84], []⟩,
  ⟨[105], -1, [50, 53], []⟩,
  ⟨[105], -1, [49, 52, 51], []⟩,
  ⟨[115], 0, [53, 54, 55, 56], [49, 50, 51, 52]⟩,
  ⟨[105], -1, [54, 48], []⟩,
  ⟨[105], -1, [86], []⟩,
  ⟨[105], -1, [109, 97, 110], []⟩,
  ⟨[105], -1, [51, 56], []⟩,
  ⟨[105], -1, [56, 54], []⟩,
  ⟨[105], -1, [52, 54], []⟩,
  ⟨[105], -1, [57, 50], []⟩,
  ⟨[105], -1, [71], []⟩,
  ⟨[105], -1, [53, 52], []⟩,
  ⟨[105], 0, [77], []⟩,
  ⟨[105], 0, [55, 48], []⟩,
  ⟨[105], 0, [48, 56, 57], []⟩,
  ⟨[105], -1, [54, 56], []⟩,
  ⟨[105], 0, [54, 50], []⟩,
  ⟨[105], -1, [55, 56], []⟩,
  ⟨[105], 0, [89], []⟩,
  ⟨[105], -1, [54, 50], []⟩,
  ⟨[105], -1, [52, 48], []⟩,
  ⟨[105], -1, [67], []⟩,
  ⟨[105], 0, [72], []⟩,
  ⟨[105], -1, [66], []⟩,
  ⟨[105], -1, [88], []⟩,
  ⟨[105], -1, [50, 54], []⟩,
  ⟨[105], 0, [84], []⟩,
  ⟨[115], 0, [119, 115, 120], [50, 119, 115, 120]⟩,
  ⟨[115], 0, [50, 119, 115, 120], [119, 115, 120]⟩,
  ⟨[105], 0, [51, 55], []⟩,
  ⟨[105], -1, [48, 51], []⟩,
  ⟨[105], -1, [74], []⟩,
  ⟨[105], -1, [53, 53], []⟩,
  ⟨[105], -1, [52, 57], []⟩,
  ⟨[105], -1, [51, 52], []⟩,
  ⟨[115], 0, [122, 120, 99, 118], [97, 115, 100, 102]⟩,
  ⟨[115], 0, [97, 115, 100, 102], [122, 120, 99, 118]⟩,
  ⟨[105], -1, [78], []⟩]

end Migp.Mutator
