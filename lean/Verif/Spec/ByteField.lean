import Verif.Spec.Json
/-!
# What a sequence of members makes of a field of bytes

A small vocabulary for documents in which a field of bytes is given by an array with other things than bytes in it.
-/
namespace Migp.Spec
open Migp.Json

/-- One value `v` for a field of bytes that held `old`. An acceptable value gives its bytes. An array with other
things than bytes in it gives as many bytes as it has elements; an element that is a byte is in its place, and in
the other places is what was there before (if there were that many bytes; nothing is said about a place beyond).
Anything else leaves the field as it was. -/
def ByteStep (v : JVal) (old new : Bytes) : Prop :=
  IsBytes v new ∨
  (∃ es, v = .arr es ∧ new.length = es.length ∧
    ∀ (i : Nat) (e : JVal) (x : UInt8), es[i]? = some e → new[i]? = some x →
      (∀ n, IsUint 255 e n → x.toNat = n) ∧
      ((¬ ∃ n, IsUint 255 e n) → ∀ y, old[i]? = some y → x = y)) ∨
  ((¬ ∃ b, IsBytes v b) ∧ (∀ es, v ≠ .arr es) ∧ new = old)

/-- The members of an object, one after the other, make `new` of the field `name`, which held `old`. -/
inductive ByteField (name : GoString) : List (GoString × JVal) → Bytes → Bytes → Prop
  | done {b : Bytes} : ByteField name [] b b
  | other {k : GoString} {v : JVal} {ms : List (GoString × JVal)} {old new : Bytes} :
      ¬ SameName name k → ByteField name ms old new → ByteField name ((k, v) :: ms) old new
  | this {k : GoString} {v : JVal} {ms : List (GoString × JVal)} {old mid new : Bytes} :
      SameName name k → ByteStep v old mid → ByteField name ms mid new → ByteField name ((k, v) :: ms) old new

end Migp.Spec
