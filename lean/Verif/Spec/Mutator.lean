import Verif.Model.MutatorTypes
import Verif.Go.Murmur3
/-!
# Specification of the password mangling rules

What each rule is supposed to do to a password, said without buffers, copies or bounds checks, and
which rule results `Mutate` is supposed to return.
-/
namespace Migp.Spec
open Migp.Mutator

/-- The ASCII letters. -/
def IsAsciiLetter (b : UInt8) : Prop := (65 ≤ b ∧ b ≤ 90) ∨ (97 ≤ b ∧ b ≤ 122)

instance (b : UInt8) : Decidable (IsAsciiLetter b) := by unfold IsAsciiLetter; infer_instance

/-- The byte a capitalisation rule writes in place of `b`: ASCII letters and the letters of the upper
half of Latin-1 change case by flipping bit 5; `ß` stays; `µ` and `ÿ` become the low byte of their
(non Latin-1) capital, `0x39C` and `0x178`; all other bytes stay. -/
def toggle (b : UInt8) : UInt8 :=
  if IsAsciiLetter b then b ^^^ 32
  else if b = 0xB5 then 0x9C
  else if b = 0xFF then 0x78
  else if 0xC0 ≤ b ∧ b ≠ 0xD7 ∧ b ≠ 0xF7 ∧ b ≠ 0xDF then b ^^^ 32
  else b

/-- A rule position counted from the front (`k ≥ 0`) or from the back (`k < 0`), where the back is
position `stop`. -/
def fromEnd (k : Int) (stop : Nat) : Int := if k < 0 then stop + k else k

/-- Capitalisation rule at position `k`. -/
def capitalise (k : Int) (pw : Bytes) : Bytes :=
  pw.mapIdx (fun i b => if (i : Int) = fromEnd k pw.length then toggle b else b)

/-- Deletion rule: the first `k` bytes, or the last `-k` bytes; nothing when there are not that many.
-/
def delete (k : Int) (pw : Bytes) : Bytes :=
  if k.natAbs ≤ pw.length then
    if 0 ≤ k then pw.drop k.natAbs else pw.take (pw.length - k.natAbs)
  else pw

/-- Insertion rule: `s` is put before index `k`, or before index `len + 1 + k` for negative `k`. -/
def insertAt (k : Int) (s : Bytes) (pw : Bytes) : Bytes :=
  let i := fromEnd k (pw.length + 1)
  if 0 ≤ i ∧ i ≤ pw.length then pw.take i.toNat ++ s ++ pw.drop i.toNat else pw

/-- `Pieces old s ps`: cutting `s` at the leftmost non-overlapping occurrences of `old` leaves the
pieces `ps`. -/
inductive Pieces (old : Bytes) : Bytes → List Bytes → Prop
  /-- no occurrence left -/
  | last (s : Bytes) : ¬ old <:+: s → Pieces old s [s]
  /-- `p` ends where the leftmost occurrence begins -/
  | cut (p rest : Bytes) (ps : List Bytes) :
      (∀ k < p.length, ¬ old <+: (p ++ old ++ rest).drop k) → Pieces old rest ps →
      Pieces old (p ++ old ++ rest) (p :: ps)

/-- What each rule does to a password. -/
inductive RuleResult : RDasRule → Bytes → Bytes → Prop
  /-- capitalisation -/
  | c (k : Int) (s1 s2 pw : Bytes) : RuleResult ⟨ascii "c", k, s1, s2⟩ pw (capitalise k pw)
  /-- deletion -/
  | d (k : Int) (s1 s2 pw : Bytes) : RuleResult ⟨ascii "d", k, s1, s2⟩ pw (delete k pw)
  /-- insertion -/
  | i (k : Int) (s1 s2 pw : Bytes) : RuleResult ⟨ascii "i", k, s1, s2⟩ pw (insertAt k s1 pw)
  /-- substitution: cut at the occurrences of `s1`, join with `s2` -/
  | s (k : Int) (s1 s2 pw : Bytes) (ps : List Bytes) : s1 ≠ [] → Pieces s1 pw ps →
      RuleResult ⟨ascii "s", k, s1, s2⟩ pw (s2.intercalate ps)

/-- The murmur3 hash of `y` differs from those of all of `xs`. -/
def Fresh (xs : List Bytes) (y : Bytes) : Prop := ∀ x ∈ xs, Murmur3.sum32 x ≠ Murmur3.sum32 y

instance (xs : List Bytes) (y : Bytes) : Decidable (Fresh xs y) := by
  unfold Fresh; infer_instance

/-- Of the rule results `rs`, in order, those whose hash differs from that of the password and of
every earlier result. -/
def freshResults (pw : Bytes) (rs : List Bytes) : List Bytes :=
  (rs.zipIdx.filter (fun x => decide (Fresh (pw :: rs.take x.2) x.1))).map (·.1)

end Migp.Spec
