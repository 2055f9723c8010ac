import Verif.Go.Heap
import Verif.Model.Mutator
/-!
# `pkg/mutator/rdasmutator.go` with slices that share memory
-/
namespace Migp.Mutator
open HM

/-- rdasmutator.go:116-128 -/
def changeCapH (oldBuf : Slice) (position : Int) : HM Slice := do
  let newBuf ← make oldBuf.len
  copySlice newBuf oldBuf
  let position := if position < 0 then (oldBuf.len : Int) + position else position
  if position ≥ 0 ∧ position < oldBuf.len then
    let old ← getIdx oldBuf position.toNat
    match switchCase old with
    | .ok b => setIdx newBuf position.toNat b >>= fun _ => pure newBuf
    | .err _ => pure newBuf
    | .panic p => HM.panic p
  else pure newBuf

/-- rdasmutator.go:131-144 -/
def deletePortionH (oldBuf : Slice) (position : Int) : HM Slice :=
  if position ≥ 0 ∧ position ≤ oldBuf.len then do
    let newBuf ← make ((oldBuf.len : Int) - position).toNat
    let src ← resliceFrom oldBuf position.toNat
    copySlice newBuf src
    pure newBuf
  else if position < 0 ∧ (oldBuf.len : Int) + position ≥ 0 then do
    let newBuf ← make ((oldBuf.len : Int) + position).toNat
    let src ← reslice oldBuf 0 ((oldBuf.len : Int) + position).toNat
    copySlice newBuf src
    pure newBuf
  else do
    let newBuf ← make oldBuf.len
    copySlice newBuf oldBuf
    pure newBuf

/-- rdasmutator.go:148-168 -/
def insertH (oldBuf : Slice) (position : Int) (string1 : GoString) : HM Slice :=
  if oldBuf.len = 0 ∧ (position = 0 ∨ position = -1) then do
    let newBuf ← make string1.length
    copyBytes newBuf string1
    pure newBuf
  else
    let position := if position < 0 then position + oldBuf.len + 1 else position
    if position ≥ 0 ∧ position ≤ oldBuf.len then do
      let newBuf ← make (oldBuf.len + string1.length)
      let pre ← reslice oldBuf 0 position.toNat
      copySlice newBuf pre
      let mid ← resliceFrom newBuf position.toNat
      copyBytes mid string1
      let last ← resliceFrom newBuf (position.toNat + string1.length)
      let post ← resliceFrom oldBuf position.toNat
      copySlice last post
      pure newBuf
    else do
      let newBuf ← make oldBuf.len
      copySlice newBuf oldBuf
      pure newBuf

/-- rdasmutator.go:172-174. `bytes.ReplaceAll` returns a copy even if there is nothing to replace. -/
def substituteH (buf : Slice) (_position : Int) (string1 string2 : GoString) : HM Slice := do
  let s ← load buf
  new (replaceAll s string1 string2)

/-- rdasmutator.go:91-102 -/
def applyRuleH (rule : RDasRule) (s : Slice) : HM Slice :=
  if rule.ruleType = ascii "c" then changeCapH s rule.position
  else if rule.ruleType = ascii "d" then deletePortionH s rule.position
  else if rule.ruleType = ascii "i" then insertH s rule.position rule.string1
  else if rule.ruleType = ascii "s" then substituteH s rule.position rule.string1 rule.string2
  else HM.panic .mutatorRule

/-- rdasmutator.go:79-110 -/
def mutateLoopH (password : Slice) (num : Int) : (rules : List RDasRule) → (j : Int) →
    (seen : List UInt32) → (mutations : List Slice) → HM (List Slice)
  | [], _, _, mutations => pure mutations
  | rule :: rules, j, seen, mutations =>
    if j < num then do
      let s ← applyRuleH rule password
      let b ← load s
      let key := Murmur3.sum32 b
      if seen.contains key then mutateLoopH password num rules j seen mutations
      else mutateLoopH password num rules (j + 1) (key :: seen) (mutations ++ [s])
    else pure mutations

/-- rdasmutator.go:70-112. (The array of slice headers that `Mutate` builds is not in this heap: only
`Mutate` writes to it.) -/
def mutateH (rules : List RDasRule) (password : Slice) (num : Int) : HM (List Slice) :=
  if rules.length = 0 then HM.panic .mutatorUninitialized
  else if num < 0 ∨ num > maxSliceCap then HM.panic .makeslice
  else do
    let b ← load password
    mutateLoopH password num rules 0 [Murmur3.sum32 b] []

end Migp.Mutator
