import Verif.Model.KV
import Verif.Model.Common
import Mathlib.Data.List.Forall2
/-!
# Stores put together from pieces
-/
namespace Migp.Spec

/-- Under every key, `kv` has what `a` has followed by what `b` has. -/
def Joined (a b kv : KV) : Prop :=
  ∀ key, ∃ x y, a.get key = .ok x ∧ b.get key = .ok y ∧ kv.get key = .ok (x ++ y)

/-- Under every key, `kv` has what the pieces have, one after the other. -/
def JoinedAll (pieces : List KV) (kv : KV) : Prop :=
  ∀ key, ∃ xs, List.Forall₂ (fun (piece : KV) x => piece.get key = .ok x) pieces xs ∧ kv.get key = .ok xs.flatten

/-- `kv'` has under each identifier of `b` bits, one after the other, what `kv` has under the `2 ^ k` identifiers that continue it
by `k` more bits. -/
def Merged (b k : Nat) (kv kv' : KV) : Prop :=
  ∀ n < 2 ^ b, ∃ xs,
    List.Forall₂ (fun low x => kv.get (BucketIDToHex (UInt32.ofNat (n * 2 ^ k + low))) = .ok x) (List.range (2 ^ k)) xs ∧
    kv'.get (BucketIDToHex (UInt32.ofNat n)) = .ok xs.flatten

/-- A file of whole lines, none of them longer than the programs read. -/
def WholeFile (file : Bytes) : Prop :=
  (file = [] ∨ ∃ f, file = f ++ [10]) ∧
  ∀ before line after, file = before ++ line ++ after → 10 ∉ line → line.length ≤ 65535

end Migp.Spec
