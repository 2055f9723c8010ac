import Verif.Go.Unicode
import Verif.Go.BytesPkg
import Verif.Go.Murmur3
import Verif.Model.DasRules
/-!
# `pkg/mutator/rdasmutator.go`
-/
namespace Migp.Mutator

/-- rdasmutator.go:53-65. `byte(r)` truncates the rune to its low 8 bits. -/
def switchCase (b : UInt8) : Res UInt8 :=
  let r := b.toNat
  if isLetterLatin1 r then
    if isUpperLatin1 r then .ok (UInt8.ofNat (toLowerLatin1 r))
    else if isLowerLatin1 r then .ok (UInt8.ofNat (toUpperLatin1 r))
    else .err .invalidRune
  else .err .notALetter

/-- rdasmutator.go:116-128. Positions are Go ints. -/
def changeCap (oldBuf : Bytes) (position : Int) : Res Bytes := do
  let newBuf ← copyAt (makeBytes oldBuf.length) 0 oldBuf
  let position := if position < 0 then (oldBuf.length : Int) + position else position
  if position ≥ 0 ∧ position < oldBuf.length then do
    let old ← index oldBuf position.toNat
    match switchCase old with
    | .ok b => setIndex newBuf position.toNat b
    | .err _ => .ok newBuf
    | .panic p => .panic p
  else .ok newBuf

/-- rdasmutator.go:131-144 -/
def deletePortion (oldBuf : Bytes) (position : Int) : Res Bytes :=
  if position ≥ 0 ∧ position ≤ oldBuf.length then do
    let src ← sliceFrom oldBuf position.toNat
    copyAt (makeBytes ((oldBuf.length : Int) - position).toNat) 0 src
  else if position < 0 ∧ (oldBuf.length : Int) + position ≥ 0 then do
    let src ← slice oldBuf 0 ((oldBuf.length : Int) + position).toNat
    copyAt (makeBytes ((oldBuf.length : Int) + position).toNat) 0 src
  else
    copyAt (makeBytes oldBuf.length) 0 oldBuf

/-- rdasmutator.go:148-168 -/
def insert (oldBuf : Bytes) (position : Int) (string1 : GoString) : Res Bytes :=
  if oldBuf.length = 0 ∧ (position = 0 ∨ position = -1) then
    copyAt (makeBytes string1.length) 0 string1
  else
    let position := if position < 0 then position + oldBuf.length + 1 else position
    if position ≥ 0 ∧ position ≤ oldBuf.length then do
      let newBuf := makeBytes (oldBuf.length + string1.length)
      let pre ← slice oldBuf 0 position.toNat
      let newBuf ← copyAt newBuf 0 pre
      let newBuf ← copyAt newBuf position.toNat string1
      let post ← sliceFrom oldBuf position.toNat
      copyAt newBuf (position.toNat + string1.length) post
    else
      copyAt (makeBytes oldBuf.length) 0 oldBuf

/-- rdasmutator.go:172-174 -/
def substitute (buf : Bytes) (_position : Int) (string1 string2 : GoString) : Bytes :=
  replaceAll buf string1 string2

/-- rdasmutator.go:91-102: the `switch rule.RuleType`. -/
def applyRule (rule : RDasRule) (s : Bytes) : Res Bytes :=
  if rule.ruleType = ascii "c" then changeCap s rule.position
  else if rule.ruleType = ascii "d" then deletePortion s rule.position
  else if rule.ruleType = ascii "i" then insert s rule.position rule.string1
  else if rule.ruleType = ascii "s" then .ok (substitute s rule.position rule.string1 rule.string2)
  else .panic .mutatorRule

/-- rdasmutator.go:79-110: the loop over the remaining rules, with `j` variants found so far and the
set `seen` of hashes. -/
def mutateLoop (password : Bytes) (num : Int) : (rules : List RDasRule) → (j : Int) →
    (seen : List UInt32) → (mutations : List Bytes) → Res (List Bytes)
  | [], _, _, mutations => .ok mutations
  | rule :: rules, j, seen, mutations =>
    if j < num then do
      let s ← applyRule rule password
      let key := Murmur3.sum32 s
      if seen.contains key then mutateLoop password num rules j seen mutations
      else mutateLoop password num rules (j + 1) (key :: seen) (mutations ++ [s])
    else .ok mutations

/-- Largest capacity accepted by Go's `make([][]byte, 0, n)` on linux/amd64: the allocation
`24 * n` must not exceed `maxAlloc = 1<<48` (larger requests panic; smaller ones may still run out
of memory, which is not modelled). -/
def maxSliceCap : Int := 281474976710656 / 24

/-- rdasmutator.go:70-112, for a mutator holding `rules`. -/
def mutate (rules : List RDasRule) (password : Bytes) (num : Int) : Res (List Bytes) :=
  if rules.length = 0 then .panic .mutatorUninitialized
  else if num < 0 ∨ num > maxSliceCap then .panic .makeslice
  else mutateLoop password num rules 0 [Murmur3.sum32 password] []

end Migp.Mutator
