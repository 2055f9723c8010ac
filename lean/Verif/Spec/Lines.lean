import Verif.Go.Basic
import Mathlib.Data.List.Forall2
/-!
# Lines of a file, and `user:password` lines
-/
namespace Migp.Spec

/-- The lines of a file: the pieces between newlines; what follows the last newline counts if it is not
empty. -/
inductive IsLines : Bytes → List Bytes → Prop
  | empty : IsLines [] []
  | last (l : Bytes) : l ≠ [] → 10 ∉ l → IsLines l [l]
  | line (l rest : Bytes) (ls : List Bytes) : 10 ∉ l → IsLines rest ls → IsLines (l ++ 10 :: rest) (l :: ls)

/-- A line without its final carriage return. -/
inductive IsChomped : Bytes → Bytes → Prop
  | cr (l : Bytes) : IsChomped (l ++ [13]) l
  | none (l : Bytes) : (∀ l', l ≠ l' ++ [13]) → IsChomped l l

/-- `line` is `user`, a colon, `password`, the user part without a colon. -/
def IsCredential (line user password : Bytes) : Prop :=
  line = user ++ 58 :: password ∧ 58 ∉ user

/-- What a line is read as: a credential, or `none` if it has no colon. -/
def IsPart (line : Bytes) : Option (Bytes × Bytes) → Prop
  | some (user, password) => IsCredential line user password
  | none => 58 ∉ line

/-- What a file is read as: its lines up to the first one of more than 65535 bytes, each without a final carriage
return, each split at its first colon. -/
def ReadsAs (file : Bytes) (parts : List (Option (Bytes × Bytes))) : Prop :=
  ∃ ls chomped, IsLines file ls ∧
    List.Forall₂ IsChomped (ls.takeWhile (fun l => l.length ≤ 65535)) chomped ∧
    List.Forall₂ IsPart chomped parts

/-- The credentials among the parts. -/
def credentials (parts : List (Option (Bytes × Bytes))) : List (Bytes × Bytes) := parts.filterMap id

end Migp.Spec
