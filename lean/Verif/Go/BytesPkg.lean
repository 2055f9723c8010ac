import Verif.Go.Unicode
/-!
# Package `bytes`: `ReplaceAll`, `SplitN(s, sep, 2)`
-/
namespace Migp

/-- The copying loop of `bytes.ReplaceAll` for non-empty `old`; `skip` counts the bytes of the
occurrence just replaced that are still to be passed over. -/
def replaceGo (old new : Bytes) : (skip : Nat) → Bytes → Bytes
  | _, [] => []
  | skip + 1, _ :: rest => replaceGo old new skip rest
  | 0, b :: rest =>
    if old.isPrefixOf (b :: rest) then new ++ replaceGo old new (old.length - 1) rest
    else b :: replaceGo old new 0 rest

/-- `bytes.ReplaceAll(s, old, new)` for non-empty `old`: scanning from the left, at each position an
occurrence is replaced and passed over. -/
def replaceNonempty (old new : Bytes) (s : Bytes) : Bytes := replaceGo old new 0 s

/-- `bytes.ReplaceAll(s, "", new)`: `new` before every rune and at the end. -/
def replaceEmpty (new : Bytes) (s : Bytes) : Bytes :=
  match _h : s with
  | [] => new
  | b :: rest =>
    let w := max 1 (runeWidth (b :: rest))
    new ++ s.take w ++ replaceEmpty new (s.drop w)
termination_by s.length
decreasing_by simp_all [List.length_drop]; omega

/-- `bytes.ReplaceAll(s, old, new)`. -/
def replaceAll (s old new : Bytes) : Bytes :=
  if old = [] then replaceEmpty new s else replaceNonempty old new s

/-- `bytes.SplitN(s, []byte{sep}, 2)`: the part before and the part after the first separator, or the
whole input if there is none. -/
def splitN2 (s : Bytes) (sep : UInt8) : List Bytes :=
  match s.idxOf? sep with
  | some i => [s.take i, s.drop (i + 1)]
  | none => [s]

end Migp
